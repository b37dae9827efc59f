{
 "claims": [
  {
   "property": "C01",
   "status": "proved",
   "theorems": [
    "Qugar.C01_tensor_flat_tensor",
    "Qugar.C01_flat_tensor_flat",
    "Qugar.C01_domain",
    "Qugar.C01_flat_formula",
    "Qugar.C01_remove_component",
    "Qugar.C01_iterator_flat"
   ],
   "note": "any dimension; overflow not modelled"
  },
  {
   "property": "C02",
   "status": "partial",
   "theorems": [
    "Qugar.C02_range_iteration_partial",
    "Qugar.C02_range_iteration_empty_direction_fails"
   ],
   "note": "exact for ranges non-empty in all directions and for lower = upper; the code visits a spurious index for every other empty range (negation proved)"
  },
  {
   "property": "C03",
   "status": "proved",
   "theorems": [
    "Qugar.C03_split_bipartition"
   ],
   "note": ""
  },
  {
   "property": "C04",
   "status": "proved",
   "theorems": [
    "Qugar.C04_membership_and_size"
   ],
   "note": ""
  },
  {
   "property": "C05",
   "status": "partial",
   "theorems": [
    "Qugar.Grid.C05_located_cell_contains_point",
    "Qugar.Grid.C05_interior_point_located",
    "Qugar.Grid.C05_upper_corner_is_last_cell",
    "Qugar.Grid.C05_interior_knot_goes_to_upper_cell",
    "Qugar.Grid.C05_lowest_neighbour_fails",
    "Qugar.C05_at_cells_boundary"
   ],
   "note": "everything but the documented \"lowest index\" for shared boundaries, whose negation is proved (the code picks the upper cell at an interior knot)"
  },
  {
   "property": "C06",
   "status": "proved",
   "theorems": [
    "Qugar.Grid.C06_boundary_cells_eq_filter",
    "Qugar.Grid.C06_on_boundary_geometric"
   ],
   "note": ""
  },
  {
   "property": "C07",
   "status": "proved",
   "theorems": [
    "Qugar.Grid.C07_cell_domain_inside",
    "Qugar.Grid.C07_cells_disjoint",
    "Qugar.Grid.C07_subgrid_volumes_add_up",
    "Qugar.Grid.C07_full_subgrid_domain",
    "Qugar.Grid.C07_cell_volumes_sum_to_domain",
    "Qugar.Grid.C07_equispaced"
   ],
   "note": "exact arithmetic in a linearly ordered field"
  },
  {
   "property": "C08",
   "status": "proved",
   "theorems": [
    "Qugar.C08_leaves_tile_the_grid",
    "Qugar.C08_operations_do_not_get_stuck",
    "Qugar.C08_get_status_fails_on_leaves"
   ],
   "note": "any history; last theorem records a finding about get_status on leaves"
  },
  {
   "property": "C09",
   "status": "proved",
   "theorems": [
    "Qugar.C09_cells_by_status"
   ],
   "note": ""
  },
  {
   "property": "C10",
   "status": "proved",
   "theorems": [
    "Qugar.C10_target_queries"
   ],
   "note": ""
  },
  {
   "property": "C11",
   "status": "proved",
   "theorems": [
    "Qugar.C11_history_monotone",
    "Qugar.C11_operations_commute"
   ],
   "note": ""
  },
  {
   "property": "C12",
   "status": "proved",
   "theorems": [
    "Qugar.C12_decomposition_sound",
    "Qugar.C12_mixed_sign_cells_are_classified",
    "Qugar.C12_interval_signs_are_sound"
   ],
   "note": "relative to a sound interval sign oracle (external: algoim)"
  },
  {
   "property": "C13",
   "status": "partial",
   "theorems": [
    "Qugar.C13_target_build_partial",
    "Qugar.C13_debug_build_aborts"
   ],
   "note": "holds with assertions compiled out; with assertions on the build aborts whenever a target cell has a determined sign (negation proved)"
  },
  {
   "property": "C14",
   "status": "proved",
   "theorems": [
    "Qugar.C14_cell_verdicts",
    "Qugar.C14_bezier_cell_verdicts",
    "Qugar.C14_tiny_cells_are_always_empty"
   ],
   "note": "the measured volume (algoim) is an input"
  },
  {
   "property": "C15",
   "status": "proved",
   "theorems": [
    "Qugar.C15_cut_cell_facets",
    "Qugar.C15_full_unfitted_cell_facets",
    "Qugar.C15_predicates_exclusive",
    "Qugar.C15_facets_of_plain_cells"
   ],
   "note": "the facet nodes (algoim) are inputs"
  },
  {
   "property": "C16",
   "status": "proved",
   "theorems": [
    "Qugar.C16_facet_lists_agree_with_predicates",
    "Qugar.C16_facet_targets"
   ],
   "note": "for builds that succeed: without targets, or with assertions compiled out; any iteration order of the facet map"
  },
  {
   "property": "C17",
   "status": "proved",
   "theorems": [
    "Qugar.C17_full_cells_with_unfitted_boundary"
   ],
   "note": ""
  },
  {
   "property": "C18",
   "status": "proved",
   "theorems": [
    "Qugar.C18_cell_quadrature",
    "Qugar.C18_cell_quadrature_total"
   ],
   "note": "the nodes of cut cells (algoim) are inputs"
  },
  {
   "property": "C19",
   "status": "partial",
   "theorems": [
    "Qugar.C19_facet_quadrature",
    "Qugar.C19_facet_quadrature_total",
    "Qugar.C19_debug_aborts_on_pure_unfitted_facets",
    "Qugar.C19_external_boundary_points_are_kept"
   ],
   "note": "bookkeeping for all calls that return; they always return with assertions compiled out, but with assertions on the request for a facet that is neither cut nor full but has unfitted boundary aborts (proved), and external boundary points are only removed from facets that also have unfitted boundary (proved)"
  },
  {
   "property": "C20",
   "status": "proved",
   "theorems": [
    "Qugar.C20_erase_keeps_exactly_the_others",
    "Qugar.C20_purge_facet",
    "Qugar.C20_purge_unfitted"
   ],
   "note": ""
  },
  {
   "property": "C21",
   "status": "proved",
   "theorems": [
    "Qugar.C21_results_do_not_depend_on_history"
   ],
   "note": "sequential histories of calls; concurrent calls not modelled"
  },
  {
   "property": "C22",
   "status": "partial",
   "theorems": [
    "Qugar.C22_tp_rules_partial",
    "Qugar.C22_when_created",
    "Qugar.C22_three_dimensional_boxes_fail",
    "Qugar.C22_gauss_unit_cube",
    "Qugar.C22_scale_weights"
   ],
   "note": "dimensions 1 and 2 for every box, dimension 3 for boxes with lower corner 0 (hence the unit cube rules used by the library); for other 3D boxes the code adds the corner to the weights instead of the points (negation proved)"
  },
  {
   "property": "C23",
   "status": "proved",
   "theorems": [
    "Qugar.C23_gauss_tables",
    "Qugar.C23_gauss_domain",
    "Qugar.C23_gauss_polynomials"
   ],
   "note": "whole table (n = 1..100) as exact decimals, error at most 1e-33; rounding of the literals to double not modelled"
  },
  {
   "property": "C24",
   "status": "proved",
   "theorems": [
    "Qugar.C24_cell_rule",
    "Qugar.C24_facet_rule",
    "Qugar.C24_unfitted_rule",
    "Qugar.C24_unfitted_rule_bezier"
   ],
   "note": "exact arithmetic; the nodes in the cell (algoim) are inputs"
  },
  {
   "property": "C25",
   "status": "proved",
   "theorems": [
    "Qugar.Box.C25_scale_roundtrip",
    "Qugar.Box.C25_scale_membership",
    "Qugar.Box.C25_scale_to_new_domain",
    "Qugar.Box.C25_extend_point_is_hull",
    "Qugar.Box.C25_volume_midpoint_extend",
    "Qugar.C25_of_corners"
   ],
   "note": ""
  },
  {
   "property": "C26",
   "status": "proved",
   "theorems": [
    "Qugar.Affine.C26_composition",
    "Qugar.Affine.C26_inverse"
   ],
   "note": "exact arithmetic"
  },
  {
   "property": "C27",
   "status": "proved",
   "theorems": [
    "Qugar.Func.C27_chain_rule"
   ],
   "note": "real arithmetic"
  },
  {
   "property": "C28",
   "status": "partial",
   "theorems": [
    "Qugar.C28_two_axes",
    "Qugar.C28_parallel_axes_rejected",
    "Qugar.C28_one_axis",
    "Qugar.C28_one_axis_3D",
    "Qugar.C28_around_axis_partial",
    "Qugar.C28_around_axis_fails",
    "Qugar.C28_affine_axes_3D",
    "Qugar.C28_affine_axes_2D",
    "Qugar.C28_cartesian_oriented",
    "Qugar.C28_default_system"
   ],
   "note": "all constructors; the free function building a frame around an axis is wrong for axes close to the x axis (negation proved)"
  },
  {
   "property": "C29",
   "status": "partial",
   "theorems": [
    "Qugar.Poly.C29_value",
    "Qugar.Poly.C29_gradient_partial",
    "Qugar.Poly.C29_gradient_fails",
    "Qugar.Poly.C29_hessian",
    "Qugar.Poly.C29_hessian_length",
    "Qugar.Poly.C29_derivative_partial",
    "Qugar.Poly.C29_derivative_of_constants_fails",
    "Qugar.Poly.C29_facet_partial",
    "Qugar.Poly.C29_upper_facets_fail"
   ],
   "note": "value and Hessian in full; gradient for orders >= 2 or dimension 1, derivatives of non-constant directions, lower facets; the remaining cases are wrong in the code (negations proved)"
  },
  {
   "property": "C30",
   "status": "proved",
   "theorems": [
    "Qugar.Poly.C30_value",
    "Qugar.Poly.C30_gradient",
    "Qugar.Poly.C30_hessian",
    "Qugar.Poly.C30_facet"
   ],
   "note": "any dimension, any orders, coefficients in any vector space"
  },
  {
   "property": "C31",
   "status": "proved",
   "theorems": [
    "Qugar.Poly.C31_values",
    "Qugar.Poly.C31_nonneg",
    "Qugar.Poly.C31_derivatives",
    "Qugar.Poly.C31_derivatives_sum"
   ],
   "note": ""
  },
  {
   "property": "C32",
   "status": "proved",
   "theorems": [
    "Qugar.Poly.C32_bounds",
    "Qugar.Poly.C32_signs"
   ],
   "note": "Algoim uniformSign is a parameter with its documented meaning"
  },
  {
   "property": "C33",
   "status": "proved",
   "theorems": [
    "Qugar.Poly.C33_conversion"
   ],
   "note": ""
  },
  {
   "property": "C34",
   "status": "proved",
   "theorems": [
    "Qugar.Poly.C34_product",
    "Qugar.Poly.C34_sum",
    "Qugar.Poly.C34_difference",
    "Qugar.Poly.C34_raise_order",
    "Qugar.Poly.C34_raise_order_refused",
    "Qugar.Poly.C34_negate",
    "Qugar.Poly.C34_composition"
   ],
   "note": "dimensions 1..3 as instantiated; all degrees"
  },
  {
   "property": "C35",
   "status": "partial",
   "theorems": [
    "Qugar.Lagrange.C35_interpolation",
    "Qugar.Lagrange.C35_reproduction",
    "Qugar.Lagrange.C35_sum",
    "Qugar.Lagrange.C35_derivatives",
    "Qugar.Lagrange.C35_tensor_interpolation",
    "Qugar.Lagrange.C35_tensor_sum",
    "Qugar.Lagrange.C35_tensor_reproduction",
    "Qugar.Lagrange.C35_tensor_derivatives",
    "Qugar.Lagrange.C35_refuses_low_orders",
    "Qugar.Lagrange.C35_flag_is_inverted",
    "Qugar.Lagrange.C35_choice_of_nodes_fails"
   ],
   "note": "everything but the choice of nodes: the flag is inverted in the code (negation proved); modifiedChebyshevNode is a parameter"
  },
  {
   "property": "C36",
   "status": "proved",
   "theorems": [
    "Qugar.Poly.C36_linear_transform",
    "Qugar.Poly.C36_transform_image",
    "Qugar.Poly.C36_transform_image_points",
    "Qugar.Poly.C36_components",
    "Qugar.Poly.C36_components_determine"
   ],
   "note": ""
  },
  {
   "property": "C37",
   "status": "proved",
   "theorems": [
    "Qugar.Points.C37_unique_points",
    "Qugar.Points.C37_merged",
    "Qugar.Points.C37_sort_independent",
    "Qugar.Points.C37_idempotent"
   ],
   "note": "Exact arithmetic; the (unstable) sort is external: any sorted permutation. Chains of near-coincident points are merged, so identified points may differ by up to (n-1) tolerances."
  },
  {
   "property": "C38",
   "status": "proved",
   "theorems": [
    "Qugar.Mesh.C38_valid",
    "Qugar.Mesh.C38_merge",
    "Qugar.Mesh.C38_coincident",
    "Qugar.Mesh.C38_full_cell",
    "Qugar.Mesh.C38_full_cell_in_box",
    "Qugar.Mesh.C38_insert",
    "Qugar.Mesh.C38_scale_all",
    "Qugar.Mesh.C38_unfilled_cells_fail"
   ],
   "note": "All histories of the mesh operations; the sorts are external (any sorted permutation). A cell allocated but not yet filled counts as unset: merging a mesh with such cells is the one operation after which entries dangle, proved as C38_unfilled_cells_fail."
  },
  {
   "property": "C39",
   "status": "proved",
   "theorems": [
    "Qugar.Vtu.C39_vtk_order",
    "Qugar.Vtu.C39_mask_permutation",
    "Qugar.Vtu.C39_corners_first",
    "Qugar.Vtu.C39_written_cell",
    "Qugar.Vtu.C39_cell_type"
   ],
   "note": "All orders from 2 on and dimensions 1, 2, 3; the order is compared with a table-driven specification of the VTK ordering."
  },
  {
   "property": "C40",
   "status": "partial",
   "theorems": [
    "Qugar.Mesh.C40_purge_partial",
    "Qugar.Mesh.C40_purge_unambiguous",
    "Qugar.Mesh.C40_idempotent",
    "Qugar.Mesh.C40_closed_edges_fail"
   ],
   "note": "Holds for orders up to 5 and for open edges. A closed edge with at least 6 points and equal second points on both sides is not given a canonical orientation by the code, so that it and its reverse can both be kept (C40_closed_edges_fail)."
  },
  {
   "property": "C41",
   "status": "partial",
   "theorems": [
    "Qugar.Mesh.C41_permute",
    "Qugar.Mesh.C41_involutive",
    "Qugar.Mesh.C41_orient_cells_partial",
    "Qugar.Mesh.C41_orient_all_partial",
    "Qugar.Mesh.C41_orient_levelset_partial",
    "Qugar.Mesh.C41_orient_facet",
    "Qugar.Mesh.C41_wrong_nodes_fail",
    "Qugar.Mesh.C41_orient_functions_partial",
    "Qugar.Mesh.C41_orient_function_partial",
    "Qugar.Mesh.C41_several_functions_fail"
   ],
   "note": "The permutation laws hold for all orders and dimensions. Orientation is proved to flip exactly the cells whose Jacobian determinant, computed with the nodes the code uses, is negative and to leave none negative; for orders 4 to 6 the code evaluates with Chebyshev nodes for equidistant cells, so that a positive cell may be flipped (C41_wrong_nodes_fail). With several level set functions the cells are oriented along the function with the smallest value, not the one that vanishes (C41_several_functions_fail)."
  },
  {
   "property": "C42",
   "status": "partial",
   "theorems": [
    "Qugar.Roots.C42_adjusted_roots_partial",
    "Qugar.Roots.C42_close_roots_are_merged",
    "Qugar.Roots.C42_chains_are_not_merged"
   ],
   "note": "everything but the separation of distinct consecutive roots, which fails for chains (negation proved)"
  },
  {
   "property": "C43",
   "status": "partial",
   "theorems": [
    "Qugar.Func.C43_pointwise",
    "Qugar.Func.C43_dim_linear_2D",
    "Qugar.Func.C43_dim_linear_3D_partial",
    "Qugar.Func.C43_dim_linear_3D_hessian_fails",
    "Qugar.Func.C43_square_value",
    "Qugar.Func.C43_square_gradient",
    "Qugar.Func.C27_chain_rule"
   ],
   "note": "the 3D multilinear function returns a wrong mixed yz derivative (negation proved); Square has no Hessian (assert false in the code)"
  },
  {
   "property": "C44",
   "status": "partial",
   "theorems": [
    "Qugar.Prim.C44_sphere",
    "Qugar.Prim.C44_cylinder",
    "Qugar.Prim.C44_ellipsoid",
    "Qugar.Prim.C44_annulus_gradient_fails",
    "Qugar.Prim.C44_annulus_hessian_fails",
    "Qugar.Prim.C44_torus",
    "Qugar.Prim.C44_constant_plane",
    "Qugar.Prim.C44_stored_axis",
    "Qugar.Prim.C44_sphere_sign",
    "Qugar.Prim.C44_cylinder_sign",
    "Qugar.Prim.C44_annulus_sign",
    "Qugar.Prim.C44_plane_sign",
    "Qugar.Prim.C44_torus_sign",
    "Qugar.Prim.C44_ellipsoid_sign"
   ],
   "note": "wrong derivatives in the code: cylinder Hessian, annulus gradient and Hessian (negations proved)"
  },
  {
   "property": "C45",
   "status": "proved",
   "theorems": [
    "Qugar.Prim.C45_sphere",
    "Qugar.Prim.C45_cylinder",
    "Qugar.Prim.C45_ellipsoid",
    "Qugar.Prim.C45_annulus",
    "Qugar.Prim.C45_torus",
    "Qugar.Prim.C45_constant",
    "Qugar.Prim.C45_plane",
    "Qugar.Prim.C45_plane_sign"
   ],
   "note": "Exact arithmetic. Sphere, cylinder, ellipsoid, annulus, torus and constant: same value at every point, all parameters (cylinder and torus: axis longer than the tolerance). Plane: the Bezier version normalises the normal, so same sign everywhere and same value for unit normals."
  },
  {
   "property": "C46",
   "status": "partial",
   "theorems": [
    "Qugar.Tpms.C46_exact_derivatives",
    "Qugar.Tpms.C46_gyroid_hessian_fails",
    "Qugar.Tpms.C46_iwp_partial",
    "Qugar.Tpms.C46_iwp_gradient_fails",
    "Qugar.Tpms.C46_periodic"
   ],
   "note": "all surfaces but the gyroid Hessian in 3D and the IWP gradient, which are wrong in the code (negations proved)"
  },
  {
   "property": "C47",
   "status": "proved",
   "theorems": [
    "Qugar.Tol.C47_equal_reflexive_symmetric",
    "Qugar.Tol.C47_trichotomy",
    "Qugar.Tol.C47_order_laws",
    "Qugar.Tol.C47_unique",
    "Qugar.Tol.C47_coincident",
    "Qugar.Tol.C47_equal_not_transitive",
    "Qugar.C47_relative"
   ],
   "note": "exact arithmetic"
  },
  {
   "property": "C48",
   "status": "proved",
   "theorems": [
    "Qugar.Ids.C48_facets",
    "Qugar.Ids.C48_edges_3D",
    "Qugar.Ids.C48_edges_2D"
   ],
   "note": "facets in any dimension, edges in 2D and 3D (the only instantiations)"
  },
  {
   "property": "C49",
   "status": "partial",
   "theorems": [
    "Qugar.C49_strict_partial_order_partial",
    "Qugar.C49_not_strict_weak_order"
   ],
   "note": "operator< is a strict partial order only; negation of strict weak order proved"
  },
  {
   "property": "C50",
   "status": "proved",
   "theorems": [
    "Qugar.C50_tanh_sinh_tables"
   ],
   "note": "whole table as exact decimals"
  },
  {
   "property": "C51",
   "status": "proved",
   "theorems": [
    "Qugar.C51_unfitted_boundary_quadrature",
    "Qugar.C51_unfitted_quadrature_total"
   ],
   "note": "for all calls that return; termination without failure when assertions are compiled out (see C19 for the debug abort)"
  },
  {
   "property": "C52",
   "status": "partial",
   "theorems": [
    "Qugar.Mesh.C52_wirebasket",
    "Qugar.Mesh.C52_curved_edges_fail"
   ],
   "note": "Exact characterisation of what is appended; the code compares the points of an edge with its first point only, so an edge that starts at a corner may be taken for an edge on a face although no face contains it (negation proved)."
  },
  {
   "property": "C53",
   "status": "partial",
   "theorems": [
    "Qugar.Reparam.C53_reparam_appends",
    "Qugar.Reparam.C53_reparam_succeeds_partial",
    "Qugar.Reparam.C53_backup_out_of_bounds"
   ],
   "note": "The appended points, cells and wires are characterised for all inputs. Success is proved when the elimination goes down to dimension 1 or the number of roots is steady; otherwise the backup strategy reads a point out of its bounds (negation proved). Algoim is a parameter."
  },
  {
   "property": "C54",
   "status": "proved",
   "theorems": [
    "Qugar.Reparam.C54_number_of_cells"
   ],
   "note": "Together with C53_reparam_appends, that gives the number of cells as cellCount."
  },
  {
   "property": "C55",
   "status": "partial",
   "theorems": [
    "Qugar.Reparam.C55_no_interfaces",
    "Qugar.Reparam.C55_negative_polynomials",
    "Qugar.Reparam.C55_positive_polynomials_fail"
   ],
   "note": "Nothing for level sets and the whole cell for volumes; when the polynomial is positive (empty domain) the code also returns the whole cell (negation proved)."
  },
  {
   "property": "C56",
   "status": "proved",
   "theorems": [
    "Qugar.Reparam.C56_inside_intervals"
   ],
   "note": "Over the reals, for a root finder that finds all zeros and continuous functions; points within the tolerance of a break are excluded."
  },
  {
   "property": "C57",
   "status": "proved",
   "theorems": [
    "Qugar.Reparam.C57_levelset_vertices",
    "Qugar.Reparam.C57_levelset_regular",
    "Qugar.Reparam.C57_volume_vertices"
   ],
   "note": "The root finder is a parameter. C57_levelset_vertices and C57_volume_vertices are unconditional and list the backup strategies as possible sources; C57_levelset_regular is the regular case."
  },
  {
   "property": "C58",
   "status": "proved",
   "theorems": [
    "Qugar.Mesh.C58_cells",
    "Qugar.Mesh.C58_success",
    "Qugar.Mesh.C58_merged",
    "Qugar.Mesh.C58_order_independent",
    "Qugar.Mesh.C58_whole_grid",
    "Qugar.Mesh.C58_bezier",
    "Qugar.General.C58_general"
   ],
   "note": "For any routine for cut cells with the stated contract; C58_bezier and C58_general show that reparam_Bezier and reparam_general meet it (Algoim a parameter)."
  },
  {
   "property": "C59",
   "status": "proved",
   "theorems": [
    "Qugar.General.C59_general_appends",
    "Qugar.General.C59_general_facet_appends"
   ],
   "note": "Algoim (interval evaluations, root finder, signs) is a parameter; the only assumption on it is that roots are in the line and finitely many."
  },
  {
   "property": "C60",
   "status": "partial",
   "theorems": [
    "Qugar.General.C60_plane_vertices_partial",
    "Qugar.General.C60_plane_coverage_partial",
    "Qugar.General.C60_last_subdivision",
    "Qugar.General.C60_region_covered_fails"
   ],
   "note": "Proved in the plane, without tolerances, for functions that the allowed subdivisions resolve (boxes still undecided after the last subdivision are taken or left by their centres, C60_last_subdivision, all dimensions): the vertices, and the coverage (the new cells are the lattices of columns that cover the negative region and do not overlap). Coverage is false in 3D: the signs of restricted functions are determined with the wrong gradient (negation proved, with sound intervals and an exact root finder)."
  },
  {
   "property": "C61",
   "status": "partial",
   "theorems": [
    "Qugar.Py.C61_node_numberings",
    "Qugar.Py.C61_nodal_values",
    "Qugar.Py.C61_dolfinx_facets",
    "Qugar.Py.C61_vtk_facets_partial",
    "Qugar.Py.C61_vtk_facets_fail"
   ],
   "note": "Nodes: all degrees, dimensions 1 to 3. Facets: DOLFINx proved; the VTK table in 3D is not the face order of vtkHexahedron (negation proved)."
  },
  {
   "property": "C62",
   "status": "partial",
   "theorems": [
    "Qugar.Py.C62_face",
    "Qugar.Py.C62_face_dolfinx",
    "Qugar.Py.C62_corner",
    "Qugar.Py.C62_all_faces",
    "Qugar.Py.C62_internal_partial",
    "Qugar.Py.C62_internal_3D_fails",
    "Qugar.Py.C62_edge",
    "Qugar.Py.C62_edge_dolfinx_partial",
    "Qugar.Py.C62_edge_dolfinx_fails",
    "Qugar.Py.C62_flat_tensor"
   ],
   "note": "All sizes. The interior is wrong in 3D, and two entries of the DOLFINx edge table in 3D are swapped (negations proved)."
  },
  {
   "property": "C63",
   "status": "proved",
   "theorems": [
    "Qugar.Py.C63_connectivity",
    "Qugar.Py.C63_nodes",
    "Qugar.Py.C63_cells",
    "Qugar.Py.C63_conforming"
   ],
   "note": "All breakpoints and degrees. In 1D the code gives the coordinates as one row, but CartesianMesh asserts dim >= 2."
  },
  {
   "property": "C64",
   "status": "partial",
   "theorems": [
    "Qugar.Py.C64_find",
    "Qugar.Py.C64_find_empty_fails",
    "Qugar.Py.C64_merge",
    "Qugar.Py.C64_merge_exact",
    "Qugar.Py.C64_close_nodes_kept_apart",
    "Qugar.Py.C64_cells_from_original",
    "Qugar.Py.C64_cells_round_trip",
    "Qugar.Py.C64_cells_rows",
    "Qugar.Py.C64_nodes_round_trip",
    "Qugar.Py.C64_nodes_from_original",
    "Qugar.Py.C64_other_processes_fail",
    "Qugar.Py.C64_face_cells",
    "Qugar.Py.C64_face_facets_partial",
    "Qugar.Py.C64_face_facets_fail"
   ],
   "note": "Serial: proved for all numberings. Negations: search in an empty array raises; the processes other than 0 keep a different numbering when active cells or merging are used; the facets of a face are looked up in DOLFINx tables by the lexicographical id; nodes closer than the tolerance may be kept apart."
  },
  {
   "property": "C65",
   "status": "partial",
   "theorems": [
    "Qugar.Py.C65_unique",
    "Qugar.Py.C65_intersect",
    "Qugar.Py.C65_difference",
    "Qugar.Py.C65_split",
    "Qugar.Py.C65_find",
    "Qugar.Py.C65_as_array",
    "Qugar.Py.C65_original",
    "Qugar.Py.C65_from_ids",
    "Qugar.Py.C65_interior_exterior_partial",
    "Qugar.Py.C65_other_processes_fail"
   ],
   "note": "The interior and all the facets are right in the first process only: the others use the range of global numbers as local ones (negation proved)."
  },
  {
   "property": "C66",
   "status": "partial",
   "theorems": [
    "Qugar.Py.UDomain.C66_facets",
    "Qugar.Py.UDomain.C66_history_partial",
    "Qugar.Py.UDomain.C66_history_fails",
    "Qugar.Py.UDomain.C66_exterior_partition",
    "Qugar.Py.UDomain.C66_all_facets",
    "Qugar.Py.UDomain.C66_facet_tags_partial",
    "Qugar.Py.UDomain.C66_facet_tags_fail",
    "Qugar.Py.UDomain.C66_cells",
    "Qugar.Py.UDomain.C66_cell_queries",
    "Qugar.Py.UDomain.C66_cell_tags",
    "Qugar.Py.UDomain.C66_gauss",
    "Qugar.Py.UDomain.C66_active"
   ],
   "note": "First process. Negations: the query of the interior empty facets omits the uncut facets with unfitted boundary and overwrites the cached interior cut facets; create_facet_tags gives the empty facets the tag of the cut ones."
  },
  {
   "property": "C67",
   "status": "partial",
   "theorems": [
    "Qugar.Py.Pack.C67_kernel",
    "Qugar.Py.Pack.C67_interior_partial",
    "Qugar.Py.Pack.C67_interior_coefficients_fail",
    "Qugar.Py.Pack.C67_interior_empty_fails",
    "Qugar.Py.Pack.C67_coeffs_offset",
    "Qugar.Py.Pack.C67_update",
    "Qugar.Py.Pack.C67_cell_integral",
    "Qugar.Py.Pack.C67_facet_integral"
   ],
   "note": "Cells and exterior facets: all of it. Interior facets: only without empty facets and without coefficients in the second side (negations proved). Number of points per entity is assumed exactly representable in the type of the coefficients."
  },
  {
   "property": "C68",
   "status": "partial",
   "theorems": [
    "Qugar.Py.FacetQuad.C68_map_cube",
    "Qugar.Py.FacetQuad.C68_map_simplex",
    "Qugar.Py.FacetQuad.C68_map_all",
    "Qugar.Py.FacetQuad.C68_permutation_bijective",
    "Qugar.Py.FacetQuad.C68_permute_all",
    "Qugar.Py.FacetQuad.C68_three_rotations_fail",
    "Qugar.Py.FacetQuad.C68_exterior",
    "Qugar.Py.FacetQuad.C68_permuted",
    "Qugar.Py.FacetQuad.C68_grid_facets",
    "Qugar.Py.FacetQuad.C68_interior_partial",
    "Qugar.Py.FacetQuad.C68_interior_fails"
   ],
   "note": "Exterior facets: all of it. Interior facets: right only when DOLFINx gives no permutation to the first side (negation proved); the permutations with three rotations of quadrilateral facets raise (negation proved). The reference cells of basix and the permutations of DOLFINx are external."
  },
  {
   "property": "C69",
   "status": "partial",
   "theorems": [
    "Qugar.Py.Version.C69_lt",
    "Qugar.Py.Version.C69_le_partial",
    "Qugar.Py.Version.C69_le_fails",
    "Qugar.Py.Version.C69_le_not_total",
    "Qugar.Py.Version.C69_le_sound",
    "Qugar.Py.Version.C69_range",
    "Qugar.Py.Version.C69_enabled",
    "Qugar.Py.Version.C69_missing",
    "Qugar.Py.Version.C69_other_versions_raise"
   ],
   "note": "Enabled exactly for the supported versions. Negations: the comparison with equality is componentwise, so it is wrong between versions with different major or minor numbers (harmless for the present ranges); versions with suffixes raise an exception instead of disabling the layer."
  },
  {
   "property": "C70",
   "status": "partial",
   "theorems": [
    "Qugar.Py.Boundary.C70_normal",
    "Qugar.Py.Boundary.C70_normal_unique",
    "Qugar.Py.Boundary.C70_normalized",
    "Qugar.Py.Boundary.C70_measure_plane",
    "Qugar.Py.Boundary.C70_measure_space",
    "Qugar.Py.Boundary.C70_other_subdomains",
    "Qugar.Py.Boundary.C70_tuples_fail",
    "Qugar.Py.Boundary.C70_tuples_example"
   ],
   "note": "All regular geometries, over the reals. Negation: with a tuple of subdomains the norm of the normal is applied twice (the product of UFL for tuples is modelled as in UFL 2025.2)."
  },
  {
   "property": "C71",
   "status": "partial",
   "theorems": [
    "Qugar.Py.Tables.C71_component",
    "Qugar.Py.Tables.C71_derivatives",
    "Qugar.Py.Tables.C71_tables_partial",
    "Qugar.Py.Tables.C71_registry",
    "Qugar.Py.Tables.C71_handles_stable",
    "Qugar.Py.Tables.C71_access_partial",
    "Qugar.Py.Tables.C71_access_fails",
    "Qugar.Py.Tables.C71_two_quadratures_fail"
   ],
   "note": "The tables of the last quadrature of an integral with tables that depend on the point: all of it. Negation: with two such quadratures the tables of the first are overwritten or released. Accesses: right if the index of the point is one product and the two indices are not both zero (negation proved). Basix is external (tabulate, index)."
  },
  {
   "property": "C72",
   "status": "partial",
   "theorems": [
    "Qugar.Py.Forms.C72_numbers",
    "Qugar.Py.Forms.C72_restored_partial",
    "Qugar.Py.Forms.C72_restored_fails",
    "Qugar.Py.Forms.C72_subdomains",
    "Qugar.Py.Forms.C72_order_fails",
    "Qugar.Py.Forms.C72_tuple_fails",
    "Qugar.Py.Forms.C72_single",
    "Qugar.Py.Forms.C72_lists_fail",
    "Qugar.Py.Forms.C72_degrees_partial",
    "Qugar.Py.Forms.C72_degrees_fail",
    "Qugar.Py.Forms.C72_ids"
   ],
   "note": "Fresh numbers, the subdomains of each number and the ids of an integral: proved for all forms. Negations: a list of forms gives an empty list; the subdomain data of the integrals over the whole boundary are not restored; an integral over the whole boundary before one with tags fails an assertion; ids in tuples may be repeated; unfitted boundary integrals of different degrees all get the degree of the last."
  },
  {
   "property": "C73",
   "status": "partial",
   "theorems": [
    "Qugar.Py.Shim.C73_exclusive",
    "Qugar.Py.Shim.C73_once",
    "Qugar.Py.Shim.C73_complete_partial",
    "Qugar.Py.Shim.C73_fast_fails",
    "Qugar.Py.Shim.C73_kept",
    "Qugar.Py.Shim.C73_crash_fails",
    "Qugar.Py.Shim.C73_stale_fails",
    "Qugar.Py.Shim.C73_rebuilt"
   ],
   "note": "Any number of workers, all schedules and crashes. Complete libraries: workers that went through the lock, without crashes. Negations: a worker that sees the library while it is linked returns it; a crash while linking leaves an incomplete library that is used from then on; a library newer than the sources but for another environment is kept."
  },
  {
   "property": "C74",
   "status": "partial",
   "theorems": [
    "Qugar.Py.Jit.C74_exclusive",
    "Qugar.Py.Jit.C74_complete",
    "Qugar.Py.Jit.C74_cached",
    "Qugar.Py.Jit.C74_not_blocked_partial",
    "Qugar.Py.Jit.C74_version_partial",
    "Qugar.Py.Jit.C74_version_fails",
    "Qugar.Py.Jit.C74_crash_fails",
    "Qugar.Py.Jit.C74_ready_fails",
    "Qugar.Py.Jit.C74_ldshared",
    "Qugar.Py.Jit.C74_ldshared_fails",
    "Qugar.Py.Jit.C74_handlers_partial",
    "Qugar.Py.Jit.C74_handlers_fail"
   ],
   "note": "Any number of processes, all schedules, failures and crashes. Negations: the name of the module does not include the version of QUGaR; a crash while compiling blocks the form for ever; a ready file that cannot be written leaves a cache in which every compilation fails and incomplete modules can be loaded; the removal of repeated tokens breaks options of two tokens; the handlers of the root logger are not restored after failures. get_cached_module is external (FFCx)."
  },
  {
   "property": "C75",
   "status": "partial",
   "theorems": [
    "Qugar.Py.Kernel.C75_brackets",
    "Qugar.Py.Kernel.C75_brackets_fail",
    "Qugar.Py.Kernel.C75_round_trip",
    "Qugar.Py.Kernel.C75_loops",
    "Qugar.Py.Kernel.C75_nested_fails",
    "Qugar.Py.Kernel.C75_end",
    "Qugar.Py.Kernel.C75_types",
    "Qugar.Py.Kernel.C75_custom",
    "Qugar.Py.Kernel.C75_original",
    "Qugar.Py.Kernel.C75_same_rule",
    "Qugar.Py.Kernel.C75_no_tables_fails",
    "Qugar.Py.Kernel.C75_shared_variables_fail"
   ],
   "note": "Two levels: text (brackets, splitting into loops, end of the function) and a small language with the scopes of C for the kernels, in which both variants are compared with what FFCx wrote, for all kernels of the shape of FFCx. The regular expressions that find the loops and make the transformations are in C83 and C84. The code between the points has blocks, loops over functions, local arrays and variables with the scopes of C. Partial only because of the known failures: a closing bracket before the first opening one, loops over points inside others, integrals with a quadrature without tables, and (not written by FFCx) a loop that changes a variable declared before the loops (hypothesis Local of original and same_rule; custom does not need it)."
  },
  {
   "property": "C76",
   "status": "partial",
   "theorems": [
    "Qugar.Py.Quad.C76_cells",
    "Qugar.Py.Quad.C76_cells_total",
    "Qugar.Py.Quad.C76_unfitted",
    "Qugar.Py.Quad.C76_unfitted_off_facets",
    "Qugar.Py.Quad.C76_unfitted_total",
    "Qugar.Py.Quad.C76_facets",
    "Qugar.Py.Quad.C76_facets_total",
    "Qugar.Py.Quad.C76_facet_points",
    "Qugar.Py.Quad.C76_arrays",
    "Qugar.Py.Quad.C76_strided_arrays_fail"
   ],
   "note": "Composition of C18, C19, C51, C64, C65, C68. Negation: the wrappers accept arrays with any stride and read consecutive memory."
  },
  {
   "property": "C77",
   "status": "partial",
   "theorems": [
    "Qugar.Py.Reparam.C77_cells",
    "Qugar.Py.Reparam.C77_domain",
    "Qugar.Py.Reparam.C77_wirebasket",
    "Qugar.Py.Reparam.C77_geometry",
    "Qugar.Py.Reparam.C77_full_cell",
    "Qugar.Py.Reparam.C77_affine_iff",
    "Qugar.Py.Reparam.C77_full_cells_partial",
    "Qugar.Py.Reparam.C77_curved_cells_fail",
    "Qugar.Py.Reparam.C77_processes_fail"
   ],
   "note": "Connectivity and geometry: all histories, degrees and dimensions. Full cells are affine exactly if the points are at the nodes of the element: true for degrees 1 and 2, false from degree 3 (the default) to 5, as the element is gll_warped and the points are equidistant (above, Chebyshev points, which depend on Algoim: only the equivalence). Negation: with P processes every cell is created P times. DOLFINx and basix are external."
  },
  {
   "property": "C78",
   "status": "partial",
   "theorems": [
    "Qugar.Py.Impl.C78_default_representation",
    "Qugar.Py.Impl.C78_balls",
    "Qugar.Py.Impl.C78_ellipses",
    "Qugar.Py.Impl.C78_ellipse_axes",
    "Qugar.Py.Impl.C78_ellipsoid_axes_fail",
    "Qugar.Py.Impl.C78_cylinder",
    "Qugar.Py.Impl.C78_zero_axis_fails",
    "Qugar.Py.Impl.C78_torus",
    "Qugar.Py.Impl.C78_annulus_partial",
    "Qugar.Py.Impl.C78_radii_order_fails",
    "Qugar.Py.Impl.C78_planes",
    "Qugar.Py.Impl.C78_constant",
    "Qugar.Py.Impl.C78_transformed",
    "Qugar.Py.Impl.C78_singular_transformation",
    "Qugar.Py.Impl.C78_dim_linear",
    "Qugar.Py.Impl.C78_box",
    "Qugar.Py.Impl.C78_transformed_box_fails",
    "Qugar.Py.Impl.C78_negative",
    "Qugar.Py.Impl.C78_sum_difference",
    "Qugar.Py.Impl.C78_surfaces_partial",
    "Qugar.Py.Impl.C78_periods_fail",
    "Qugar.Py.Impl.C78_evaluation",
    "Qugar.Py.Impl.C78_evaluation_refused"
   ],
   "note": "All factories, with nanobind modelled as trial of the overloads in order. Gradients are not exact for annuli that are not Bezier and for IWP surfaces. Negations: transformed boxes cannot be created; semi-axes of ellipsoids, the order of the radii of annuli and tori and zero axes are not checked (debug builds terminate the process); the parameters called periods are numbers of periods per unit length. Real numbers instead of floating point."
  },
  {
   "property": "C79",
   "status": "partial",
   "theorems": [
    "Qugar.Py.Solve.C79_update",
    "Qugar.Py.Solve.C79_linear",
    "Qugar.Py.Solve.C79_nonlinear",
    "Qugar.Py.Solve.C79_lists_fail",
    "Qugar.Py.Solve.C79_options_partial",
    "Qugar.Py.Solve.C79_options_fail",
    "Qugar.Py.Solve.C79_default_bcs_fail",
    "Qugar.Py.Solve.C79_data",
    "Qugar.Py.Solve.C79_assemble_scalar",
    "Qugar.Py.Solve.C79_early_import_fails"
   ],
   "note": "All histories, forms and backends (DOLFINx and PETSc are parameters). Options: only if the address of the problem was never used before. Negations: lists of forms cannot be updated; the options of a deleted problem are inherited by a new one at its address; problems created without boundary conditions share one list; names imported before the patches ignore the coefficients."
  },
  {
   "property": "C80",
   "status": "partial",
   "theorems": [
    "Qugar.VtkFile.C80_vtu",
    "Qugar.VtkFile.C80_files_partial",
    "Qugar.VtkFile.C80_directory_fails",
    "Qugar.VtkFile.C80_no_wires_fails",
    "Qugar.VtkFile.C80_unwritable_fails"
   ],
   "note": "Every mesh and file name without XML special characters. The multi-block file is proved readable for absolute names and names without directory; for the others a reader looks for the grids in the wrong directory (C80_directory_fails). Without wires three files are written instead of one; a file that cannot be opened is not reported. The printing of doubles with 17 digits and its reader are parameters that invert each other."
  },
  {
   "property": "C81",
   "status": "partial",
   "theorems": [
    "Qugar.Py.Cart.C81_inputs",
    "Qugar.Py.Cart.C81_unfitted_mesh",
    "Qugar.Py.Cart.C81_single_precision_fails",
    "Qugar.Py.Cart.C81_create_Cartesian_mesh_fails",
    "Qugar.Py.Cart.C81_cell_box_partial",
    "Qugar.Py.Cart.C81_cell_box_fails",
    "Qugar.Py.Cart.C81_boundary_tags",
    "Qugar.Py.Cart.C81_boundary_tags_partial",
    "Qugar.Py.Cart.C81_boundary_tags_fail",
    "Qugar.Py.Cart.C81_boundary_tags_twice"
   ],
   "note": "The unfitted mesh: all inputs, in double precision with exact arithmetic, on rank 0. Negations: in single precision the mesh and the grid of the domain differ; create_Cartesian_mesh raises for all arguments; the box and tensor index of a cell given by its number raise (proved right for one-element arrays); boundary tags are wrong in 2D and 3D (right in 1D)."
  },
  {
   "property": "C82",
   "status": "partial",
   "theorems": [
    "Qugar.Py.Plot.C82_quadrature",
    "Qugar.Py.Plot.C82_facets_twice",
    "Qugar.Py.Plot.C82_normals_fail",
    "Qugar.Py.Plot.C82_grid",
    "Qugar.Py.Plot.C82_domain_cpp",
    "Qugar.Py.Plot.C82_quadrature_mesh",
    "Qugar.Py.Plot.C82_mesh_cells_partial",
    "Qugar.Py.Plot.C82_mesh_cells_fail",
    "Qugar.Py.Plot.C82_facets_cpp_fail",
    "Qugar.Py.Plot.C82_facets_fail",
    "Qugar.Py.Plot.C82_facets_drawn_partial",
    "Qugar.Py.Plot.C82_reparam"
   ],
   "note": "Proved for all grids, C++ domains, histories of calls and reparameterizations (PyVista itself is external). Cells of unfitted meshes: only if DOLFINx keeps their order. Negations: facets that are cut and have unfitted boundary are drawn twice; the normals are those of the reference cell, not normal in physical space when the cell is not a cube; cells of renumbered meshes get the status of others; facets of C++ domains cannot be drawn, those of meshes are drawn on other sides (but exactly the facets of the statuses asked for, each once: facets_drawn_partial)."
  },
  {
   "property": "C83",
   "status": "proved",
   "theorems": [
    "Qugar.Py.Text.C83_headers",
    "Qugar.Py.Text.C83_loops",
    "Qugar.Py.Text.C83_quad_tables",
    "Qugar.Py.Text.C83_quad_weights",
    "Qugar.Py.Text.C83_no_quadrature",
    "Qugar.Py.Text.C83_signature",
    "Qugar.Py.Text.C83_coefficients",
    "Qugar.Py.Text.C83_parse",
    "Qugar.Py.Text.C83_render",
    "Qugar.Py.Text.C83_suffix",
    "Qugar.Py.Text.C83_render_suffix"
   ],
   "note": "Regular expressions are modelled with the backtracking semantics of Python (greedy, first alternative), texts as lists of characters. The code is of the shape FFCx writes (Source.Ok: one function, paired brackets, no line after it ends in a closing bracket); the suffix: the name does not appear inside the fixed prefix of the function."
  },
  {
   "property": "C84",
   "status": "partial",
   "theorems": [
    "Qugar.Py.Text.C84_bounds",
    "Qugar.Py.Text.C84_erase",
    "Qugar.Py.Text.C84_erase_none",
    "Qugar.Py.Text.C84_normals",
    "Qugar.Py.Text.C84_normals_comma_fails",
    "Qugar.Py.Text.C84_accesses",
    "Qugar.Py.Text.C84_new_access",
    "Qugar.Py.Text.C84_new_access_zero",
    "Qugar.Py.Text.C84_zero_index",
    "Qugar.Py.Text.C84_new_access_both_zero",
    "Qugar.Py.Text.C84_new_access_permuted",
    "Qugar.Py.Text.C84_index_fails",
    "Qugar.Py.Text.C84_collected",
    "Qugar.Py.Text.C84_check",
    "Qugar.Py.Text.C84_one_sided_fails",
    "Qugar.Py.Text.C84_no_index_fails"
   ],
   "note": "All texts of the shape of FFCx. Negations: constants after a comma or other separators are not replaced by normals; accesses with brackets inside an index that is not a single entry are not rewritten; integrals over interior facets that use one side only, and over exterior facets that do not need the number of the facet, are rejected."
  },
  {
   "property": "C85",
   "status": "proved",
   "theorems": [
    "Qugar.Py.Text.C85_options",
    "Qugar.Py.Text.C85_derivatives",
    "Qugar.Py.Text.C85_table",
    "Qugar.Py.Text.C85_tables",
    "Qugar.Py.Text.C85_sorted",
    "Qugar.Py.Text.C85_order"
   ],
   "note": "Declarations as FFCx writes them (their lines end after them; values have no letter F nor underscore). The hash of the elements is assumed injective on the elements of the form (SHA-1 of their names), and the same number to mean the same element."
  },
  {
   "property": "C86",
   "status": "partial",
   "theorems": [
    "Qugar.Py.Life.C86_memory_safe",
    "Qugar.Py.Life.C86_values",
    "Qugar.Py.Life.C86_values_mid",
    "Qugar.Py.Life.C86_no_leak",
    "Qugar.Py.Life.C86_all_freed",
    "Qugar.Py.Life.C86_mid_point_fails",
    "Qugar.Py.Life.C86_mid_point_spec"
   ],
   "note": "Refinement of the reference-counted memory by a program on immutable values, for all histories. Negation: BoundBox.mid_point returns a view of a temporary point, so its entries change with the next calls (the rest of the statement is proved for all programs, and in full for programs that do not use it). CPython reference counts and the return-value policies of nanobind are modelled as documented; arrays are read-only (no writes)."
  },
  {
   "property": "C87",
   "status": "partial",
   "theorems": [
    "Qugar.Py.Assemble.C87_entity",
    "Qugar.Py.Assemble.C87_interior_partial",
    "Qugar.Py.Assemble.C87_sum"
   ],
   "note": "Composition of the models of C67 (packer, dispatcher, loaders), C71/C73 (tables) and C75 (kernel), for all calls and states. Real and complex scalars. Missing: several quadratures with tables that depend on the point (C71_two_quadratures_fail); interior facets with coefficients or with empty facets (C67_interior_coefficients_fail, C67_interior_empty_fails). Kernels have the shape FFCx writes and access the arrays within their bounds."
  },
  {
   "property": "C88",
   "status": "proved",
   "theorems": [
    "Qugar.Py.Module.C88_header",
    "Qugar.Py.Module.C88_header_none",
    "Qugar.Py.Module.C88_data",
    "Qugar.Py.Module.C88_rejected",
    "Qugar.Py.Module.C88_dtype",
    "Qugar.Py.Module.C88_names",
    "Qugar.Py.Module.C88_loaders",
    "Qugar.Py.Module.C88_dispatch",
    "Qugar.Py.Module.C88_module",
    "Qugar.Py.Module.C88_code",
    "Qugar.Py.Module.C88_linked"
   ],
   "note": "Names of integrals (hashes of FFCx) have one length and differ; names of quadratures have one length (three characters). FFCx code of the shape of C83. linked gives the hypothesis Linked of C87 from the extracted data (one quadrature with tables that depend on the point, as in C87)."
  },
  {
   "property": "C89",
   "status": "partial",
   "theorems": [
    "Qugar.Py.Forms.C89_history_partial",
    "Qugar.Py.Forms.C89_forms_partial",
    "Qugar.Py.Forms.C89_where_partial",
    "Qugar.Py.Forms.C89_shared_fails",
    "Qugar.Py.Forms.C89_metadata_fails",
    "Qugar.Py.Forms.C89_failure_fails",
    "Qugar.Py.Forms.C89_options_fails"
   ],
   "note": "Holds for forms that do not share integrals or dictionaries of metadata. It is false for forms with shared integrals (sums), for integrals of one measure, after a failure of the compiler and for the dictionary of options (theorems _fails); subdomain data of integrals over the whole boundary are lost (C72_restored_fails)."
  },
  {
   "property": "C90",
   "status": "partial",
   "theorems": [
    "Qugar.Py.Integral.C90_total",
    "Qugar.Py.Integral.C90_cell_partial",
    "Qugar.Py.Integral.C90_scalar_partial",
    "Qugar.Py.Integral.C90_vector_partial"
   ],
   "note": "Composition of C66 (cells of a status), C64 (numberings), C76/C77 (quadratures), C67 (packer) and C87 (calls), for all histories. Missing: integrals in which two quadratures have tables that depend on the point (false: C71_two_quadratures_fail). Cells that the domain did not classify are treated as full. The loops of DOLFINx are modelled as documented; Algoim gives points with as many coordinates as the grid has directions. Tables that do not depend on the point are accessed at a fixed index (FFCx)."
  },
  {
   "property": "C91",
   "status": "partial",
   "theorems": [
    "Qugar.Py.Integral.C91_total",
    "Qugar.Py.Integral.C91_facet_partial",
    "Qugar.Py.Integral.C91_scalar_partial",
    "Qugar.Py.Integral.C91_vector_partial"
   ],
   "note": "As C90, with C65 (facets), C66 (queries of facets), C68 (points mapped to the cells) and C76 (facets). Missing: integrals in which two quadratures have tables that depend on the point (false: C71_two_quadratures_fail), integrals with elements of the dimension of the facets (points are permuted, C68), histories with queries of the empty facets of interior integrals (C66_history_fails)."
  },
  {
   "property": "C92",
   "status": "proved",
   "theorems": [
    "Qugar.Integrals.C92_integral",
    "Qugar.Integrals.C92_full_cells",
    "Qugar.Integrals.C92_general",
    "Qugar.Integrals.C92_polynomial",
    "Qugar.Integrals.C92_volume"
   ],
   "note": "Real numbers and Lebesgue integrals. Algoim is an oracle: its errors in the cells near the interface are parameters of the bound (and interval arithmetic is sound, C12). integral is the general statement; full_cells is the accuracy of the rules of full cells (C23 gives the moments of the table); general, polynomial and volume instantiate the classification by measured volumes (C14)."
  },
  {
   "property": "C93",
   "status": "proved",
   "theorems": [
    "Qugar.Py.Systems.C93_affine",
    "Qugar.Py.Systems.C93_axes_2D",
    "Qugar.Py.Systems.C93_axes_3D",
    "Qugar.Py.Systems.C93_systems",
    "Qugar.Py.Systems.C93_type_error",
    "Qugar.Py.Systems.C93_no_arguments"
   ],
   "note": "nanobind is modelled as documented (overloads in order of registration, arguments by position then by name); of its conversions only those between floating-point types. Failed C++ assertions (zero or parallel axes, scales that are not positive) abort. In release builds what follows them is not modelled."
  },
  {
   "property": "C94",
   "status": "proved",
   "theorems": [
    "Qugar.Py.Integral.C94_functional",
    "Qugar.Py.Integral.C94_whole",
    "Qugar.Py.Integral.C94_processes",
    "Qugar.Py.Integral.C94_finite_element",
    "Qugar.Py.Integral.C94_tensor",
    "Qugar.Py.Integral.C94_load_vector"
   ],
   "note": "Scalars, vectors and matrices over cells with one quadrature of the interior (C90 has the general integrals, C92 the measures). Real numbers and Lebesgue integrals. Algoim enters through the errors of its rules and of the volumes; the kernel of FFCx through Computes (what it gives with any rule, and the error of its static rule), which is proved for the kernels of finite element functions and of load vectors with them in two directions; the points of Algoim in a cell are assumed to be in it (determinant of the Jacobian of a rectangle)."
  },
  {
   "property": "C95",
   "status": "proved",
   "theorems": [
    "Qugar.Py.Integral.C95_functional",
    "Qugar.Py.Integral.C95_tensor",
    "Qugar.Py.Integral.C95_side_sum",
    "Qugar.Py.Integral.C95_side",
    "Qugar.Py.Integral.C95_finite_element"
   ],
   "note": "As C94, for exterior facets: scalars, vectors and matrices over facets with one quadrature (C91 has the general integrals); side: all facets of a side of the grid. The kernel of FFCx enters through ComputesFacet, proved for the kernels of finite element functions on sides of grids in two directions (finite_element). Exterior facets of the mesh on the boundary of the grid; D is any domain between the open and closed negative sets. Points of Algoim in cut facets are assumed to be in them."
  },
  {
   "property": "C96",
   "status": "proved",
   "theorems": [
    "Qugar.Py.Integral.C96_functional",
    "Qugar.Py.Integral.C96_tensor",
    "Qugar.Py.Integral.C96_whole",
    "Qugar.Py.Integral.C96_points",
    "Qugar.Py.Integral.C96_finite_element",
    "Qugar.Py.Integral.C96_nanson",
    "Qugar.Py.Integral.C96_load_vector"
   ],
   "note": "As C94, for one quadrature of the unfitted boundary; the surface is any measure concentrated where the level set function vanishes that is finite on the grid and gives no mass to the faces shared by cells. The kernel of FFCx enters through ComputesSurface (with any points and normals it gives the surface sum; with its static data nothing), which is proved for the kernels of finite element functions and of their fluxes, and for their load vectors (load_vector), with the factor of the formula of Nanson, in two directions (finite_element; rectangles, square roots of real numbers). Algoim enters through the errors of its points, as they are mapped to the box (points: for level set functions that are not Bezier, the sum is that of the points of Algoim in the box with normalized gradients)."
  }
 ]
}