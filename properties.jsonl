{"id": "C01", "title": "Flat and tensor indices are inverse bijections", "statement": "For a tensor size with positive entries, converting an in-range tensor index to its flat index and back returns the same tensor index, converting a flat index in [0, size) to a tensor index and back returns the same flat index, and every flat index produced lies in [0, size). The same holds for cell ids of a Cartesian grid (to_flat / to_tensor).", "quantifier": "every dimension, every tensor size, every in-range tensor index and every flat index below the product of the sizes", "why_tests_cant": "the number of sizes and indices is unbounded; a test samples a few boxes", "anchors": ["cpp/include/qugar/tensor_index_tp.hpp: TensorIndexTP(flat,size), TensorSizeTP::size", "cpp/qugar/tensor_index_tp.cpp: TensorIndexTP::flat", "cpp/qugar/cart_grid_tp.cpp: CartGridTP::to_flat, CartGridTP::to_tensor"]}
{"id": "C02", "title": "Range iteration visits every index exactly once in flat order", "statement": "Iterating a tensor index range from begin to end yields exactly the tensor indices i with lower <= i < upper in every direction, each once, direction 0 fastest, terminates after size() steps, and the flat indices met (for any enclosing tensor size) are strictly increasing. A range with an empty direction (size() = 0) must yield nothing.", "quantifier": "every dimension and every lower/upper pair", "why_tests_cant": "the odometer's carry logic must be right for every shape, including degenerate ones", "anchors": ["cpp/include/qugar/tensor_index_tp.hpp: TensorIndexRangeTP, begin, end, Iterator", "cpp/qugar/tensor_index_tp.cpp: TensorIndexRangeTP::Iterator::operator++"]}
{"id": "C03", "title": "Splitting an index range is an exact bipartition", "statement": "Splitting a range with more than one index gives two ranges, both non-empty and strictly smaller, such that every index of the original range is in exactly one of the halves and no other index is in either; therefore repeated splitting terminates in single-index ranges.", "quantifier": "every dimension and every range of size greater than one", "why_tests_cant": "termination of the domain decomposition depends on progress for every shape", "anchors": ["cpp/qugar/tensor_index_tp.cpp: TensorIndexRangeTP::split", "cpp/qugar/cart_grid_tp.cpp: SubCartGridTP::split"]}
{"id": "C04", "title": "Membership and size of an index range agree with its bounds", "statement": "is_in_range accepts a tensor index iff every component is within [lower, upper); size() equals the number of accepted indices; a flat index is accepted iff its tensor index is.", "quantifier": "every dimension, range and index", "why_tests_cant": "unbounded family of ranges and indices", "anchors": ["cpp/qugar/tensor_index_tp.cpp: TensorIndexRangeTP::is_in_range, TensorIndexRangeTP::size, get_sizes"]}
{"id": "C05", "title": "Point location in a Cartesian grid", "statement": "get_cell_id of a point of the grid domain returns a cell of the grid whose closed domain contains the point up to the tolerance in every direction; a point strictly inside a cell and farther than the tolerance from its upper faces is assigned to that cell; the last knot is assigned to the last cell. A point on the boundary shared by several cells is assigned to the one with the lowest index, as documented.", "quantifier": "every dimension, every strictly increasing list of breaks per direction, every point of the domain and every non-negative tolerance", "why_tests_cant": "knot vectors and points range over an infinite set and the failures sit on knots and at the last knot", "anchors": ["cpp/qugar/cart_grid_tp.cpp: CartGridTP::get_cell_id"]}
{"id": "C06", "title": "Boundary cells of a facet are exactly the cells on that facet", "statement": "get_boundary_cells(facet) lists exactly the cells for which on_boundary(cell, facet) holds, each once and in increasing order; a facet of a cell is on the grid boundary iff the cell is first (side 0) or last (side 1) in the facet's direction.", "quantifier": "every dimension, grid shape, facet and cell", "why_tests_cant": "unbounded family of grid shapes", "anchors": ["cpp/qugar/cart_grid_tp.cpp: CartGridTP::get_boundary_cells, CartGridTP::on_boundary"]}
{"id": "C07", "title": "Cells tile the grid domain", "statement": "Every cell domain is a box with positive side lengths inside the grid domain, two distinct cells have disjoint interiors, and the volumes of all cells of a (sub)grid add up to the volume of the (sub)grid domain. Equispaced grids have breaks starting and ending at the requested end points, with constant step.", "quantifier": "every dimension, every strictly increasing list of breaks per direction, every sub-grid", "why_tests_cant": "unbounded family of knot vectors", "anchors": ["cpp/qugar/cart_grid_tp.cpp: CartGridTP::get_cell_domain, CartGridTP::get_domain, create_cells_breaks / constructors, SubCartGridTP::get_domain"]}
{"id": "C08", "title": "The spatial partition of an unfitted domain always tiles the grid", "statement": "After any sequence of splitting and status assignment operations on the unfitted domain's partition, the leaves tile the set of grid cells: each cell belongs to exactly one leaf, and looking up a cell returns that leaf.", "quantifier": "every grid and every finite history of branch / set_status operations on nodes of the tree", "why_tests_cant": "quantifies over all operation histories", "anchors": ["cpp/qugar/unfitted_domain_binary_part.cpp: branch, find_leaf, reduce, transverse_tree", "cpp/include/qugar/unfitted_domain_binary_part.hpp"]}
{"id": "C09", "title": "Cells by status: sorted, duplicate-free, disjoint and exhaustive", "statement": "The lists of full, empty, cut and unknown cells returned by an unfitted domain are strictly increasing, pairwise disjoint, together contain every cell of the grid exactly once, and the number-of-cells queries return the lengths of those lists. A cell is in the list for a status iff the per-cell predicate for that status holds.", "quantifier": "every grid, every partition tree and every status assignment of leaves", "why_tests_cant": "must hold for every tree shape, i.e. every classification history", "anchors": ["cpp/qugar/unfitted_domain_binary_part.cpp: get_cell_ids, get_num_cells, is_cell", "cpp/qugar/unfitted_domain.cpp: get_full_cells, get_empty_cells, get_cut_cells, get_num_*"]}
{"id": "C10", "title": "Target-restricted cell queries are intersections", "statement": "Asking for the full/empty/cut cells among a list of target cells returns exactly the target cells that have that status, sorted increasingly.", "quantifier": "every partition tree, status and list of target cell ids of the grid", "why_tests_cant": "unbounded trees and target lists", "anchors": ["cpp/qugar/unfitted_domain_binary_part.cpp: get_cell_ids(target)", "cpp/qugar/unfitted_domain.cpp: get_*_cells(target)"]}
{"id": "C11", "title": "Refining the partition never changes what a user sees", "statement": "Branching a node of the partition changes no cell's status, no list of cells by status and no count; assigning a status changes only cells that were unknown, so that an assigned status is final under any later history; and operations on different nodes that are possible in either order give the same answers in either order.", "quantifier": "every grid and every finite history of branch / set_status operations", "why_tests_cant": "it ranges over all histories of operations on trees of any depth", "anchors": ["cpp/qugar/unfitted_domain_binary_part.cpp: UnfittedBinarySpacePart::branch, set_status, get_status, get_cell_ids, get_num_cells"]}
{"id": "C12", "title": "Decomposition classifies every cell soundly", "statement": "If the sign oracle used for boxes is sound (a determined sign is the sign of the function on the whole box), then after building an implicit unfitted domain without target cells every cell is classified (no cell is left unknown), every cell classified by a determined sign as full lies where the function is negative, every such empty cell lies where it is positive, and any cell on which the function takes both signs is handed to the per-cell classifier.", "quantifier": "every grid, every function, every sound sign oracle, every per-cell classifier", "why_tests_cant": "all functions and all subdivisions", "anchors": ["cpp/qugar/impl_unfitted_domain.cpp: create_decomposition, insert_cells, classify_undetermined_sign_cell"]}
{"id": "C13", "title": "Building with target cells classifies exactly the targets", "statement": "Building an implicit unfitted domain with a list of target cells succeeds and classifies each target cell exactly as the build without targets would.", "quantifier": "every grid, function oracle and target list", "why_tests_cant": "all grids and target lists", "anchors": ["cpp/qugar/impl_unfitted_domain.cpp: create_decomposition, insert_cells"]}
{"id": "C14", "title": "Cell classification from the measured volume", "statement": "A sign-undetermined cell is reported empty iff its computed volume is zero up to tolerance, full iff it equals the cell volume up to tolerance, and cut otherwise; the three verdicts are mutually exclusive for a cell of volume larger than twice the tolerance.", "quantifier": "every volume, cell volume and tolerance", "why_tests_cant": "real-valued thresholds", "anchors": ["cpp/qugar/impl_unfitted_domain.cpp: classify_cell_from_quad"]}
{"id": "C15", "title": "Facet statuses are coherent", "statement": "The status computed for a facet of a cut cell reflects the nodes found on it: has_unfitted_boundary / has_external_boundary hold iff some node lies on the unfitted / external boundary, the facet is cut iff some node is inside and the facet is not entirely inside without boundary, in which case it is full, and empty iff nothing is inside or on the unfitted boundary. Facets of full cells with unfitted boundary without inside nodes are full unfitted facets. No facet satisfies two of full / empty / cut / full unfitted.", "quantifier": "every list of facet nodes, every measure and tolerance, each facet status", "why_tests_cant": "the number of nodes and the combinations of their positions are unbounded", "anchors": ["cpp/qugar/impl_unfitted_domain.cpp: classify_facet_from_quad, classify_facet_full_unfitted_boundary", "cpp/qugar/unfitted_domain.cpp: is_cut_facet, is_full_facet, is_empty_facet, has_unfitted_boundary_facet, has_external_boundary_facet"]}
{"id": "C16", "title": "Facet lists agree with facet predicates", "statement": "get_{full,empty,cut,...}_facets() list exactly the (cell, local facet) pairs for which the corresponding predicate holds, each once; full cells without unfitted boundary contribute all their facets as full and empty cells all their facets as empty. The target version returns the same pairs restricted to the targets.", "quantifier": "every partition tree, every facet status map and every target list", "why_tests_cant": "the map and the tree are unbounded", "anchors": ["cpp/qugar/unfitted_domain.cpp: get_full_facets, get_empty_facets, get_cut_facets, get_full_unfitted_facets, get_facets_target"]}
{"id": "C17", "title": "Full cells with unfitted boundary are precisely recorded", "statement": "The list of full cells that hold a part of the unfitted boundary is sorted and contains exactly the cells that have a facet status record and are not cut.", "quantifier": "every facet map and cut-cell list", "why_tests_cant": "unbounded maps", "anchors": ["cpp/qugar/unfitted_domain.cpp: init_full_cells_with_unf_bdry (impl_unfitted_domain)"]}
{"id": "C18", "title": "Cell quadrature bookkeeping is consistent", "statement": "The quadrature created for a list of cells has one entry per requested cell in the requested order, points and weights have equal lengths, the per-cell point counts add up to that length, and the consecutive block of each cell is the rule of that cell (cut rule, full tensor-product rule, or nothing for empty cells).", "quantifier": "every unfitted domain, list of cells and number of quadrature points", "why_tests_cant": "all lists of cells in every status mix", "anchors": ["cpp/qugar/impl_quadrature.cpp: create_cell_quadrature", "cpp/qugar/cut_quadrature.cpp"]}
{"id": "C19", "title": "Facet quadrature bookkeeping is consistent", "statement": "The interior/exterior facet quadratures have one entry per requested facet in order, points, weights (and normals where present) have equal length, per-facet counts add up, and the block of a facet is the rule that its status prescribes.", "quantifier": "every unfitted domain, list of cells/facets and options", "why_tests_cant": "all facet lists in all status mixes", "anchors": ["cpp/qugar/impl_quadrature.cpp: create_facet_quadrature, create_interior_facets_quadrature, create_exterior_facets_quadrature", "cpp/qugar/cut_quadrature.cpp"]}
{"id": "C20", "title": "Removing quadrature points keeps exactly the unflagged points", "statement": "Purging a rule removes exactly the flagged points together with their weights and normals and keeps all the others in their original order, without touching points of previously processed cells.", "quantifier": "every rule, flag set and starting position", "why_tests_cant": "index-shift bugs appear only for particular flag patterns", "anchors": ["cpp/qugar/impl_quadrature.cpp: erase_points_in_quad, purge_facet_points"]}
{"id": "C21", "title": "Repeated rule requests do not depend on history", "statement": "The tensor-product Gauss rule used for a full cell or facet depends only on the requested number of points, never on the requests made before in the same process, although rules are cached between calls.", "quantifier": "every finite sequence of requests", "why_tests_cant": "quantifies over all call histories", "anchors": ["cpp/qugar/impl_quadrature.cpp: static quadrature cache in create_full_cell_quad / create_full_facet_quad"]}
{"id": "C22", "title": "Tensor-product rules integrate the box", "statement": "A tensor-product quadrature for a box has n0*n1*...*n(d-1) points, all inside the box when the 1D abscissae are in [0,1], weights that sum to the box volume when 1D weights sum to one, and integrates every product function to the product of the 1D integrals.", "quantifier": "every dimension 1..3, every box and every tuple of 1D rules", "why_tests_cant": "all boxes (in particular boxes not anchored at the origin) and all 1D rules", "anchors": ["cpp/qugar/quadrature.cpp: Quadrature::create_tp_quadrature, create_Gauss, create_Gauss_01, scale_weights"]}
{"id": "C23", "title": "Tabulated Gauss-Legendre rules are Gauss rules", "statement": "For every supported number of points n the tabulated rule on [0,1] has n abscissae in (0,1) and n positive weights summing to one, and integrates the monomials x^k, k <= 2n-1, to 1/(k+1) up to rounding.", "quantifier": "every supported n and every k <= 2n-1", "why_tests_cant": "ten thousand table entries; a single wrong digit survives ordinary tests", "anchors": ["cpp/qugar/quadrature_lib.cpp", "cpp/qugar/quadrature.cpp: get_abscissa, get_weight"]}
{"id": "C24", "title": "Mapping rules to the reference cell preserves measures", "statement": "Scaling points of a cell rule to the unit cell and weights by the inverse cell volume keeps each point's relative position and makes the weights sum to (measure / cell volume); for unfitted boundary rules the mapped normal has unit length and the weight scaling equals the surface measure change of variables.", "quantifier": "every box, point, weight and non-zero normal", "why_tests_cant": "real-valued", "anchors": ["cpp/qugar/cut_quadrature.cpp: wrappers scaling to [0,1]"]}
{"id": "C25", "title": "Bounding box maps are inverse to each other and extension is a hull", "statement": "scale_to_0_1 and scale_from_0_1 are inverse on boxes with positive side lengths, map box points to unit-cube points, scale_to_new_domain maps lower/upper corners to the new corners; expanding a box by a point gives the smallest box holding the old box and the point; volume is the product of lengths.", "quantifier": "every dimension, box and point", "why_tests_cant": "real-valued, unbounded dimension", "anchors": ["cpp/qugar/bbox.cpp: extend, scale_to_0_1, scale_from_0_1, scale_to_new_domain, mid_point, volume"]}
{"id": "C26", "title": "Affine transformations form a group action", "statement": "Composing transformations then applying equals applying in sequence, the inverse transformation undoes the transformation on every point, and a double inverse gives back the transformation, whenever the linear part is invertible.", "quantifier": "all 2D/3D affine transformations with non-zero determinant and all points", "why_tests_cant": "real coefficient space", "anchors": ["cpp/qugar/affine_transf.cpp: operator*, inverse, transform_point"]}
{"id": "C27", "title": "Derivatives of transformed functions obey the chain rule", "statement": "For a function composed with an affine transformation, value, gradient and Hessian returned are those of the composed function: gradient is A^T grad f, Hessian is A^T H A, evaluated at the transformed point.", "quantifier": "all functions with correct derivatives, all affine transformations, all points", "why_tests_cant": "functions and points range over infinite sets", "anchors": ["cpp/qugar/affine_transf.cpp: transform_vector, transform_tensor", "cpp/include/qugar/impl_funcs_lib_macros.hpp", "cpp/qugar/impl_funcs_lib.cpp: TransformedFunction"]}
{"id": "C28", "title": "Reference systems are orthonormal and right-handed", "statement": "Reference systems created from the given axes are orthonormal bases with the first axis along the requested direction (and the 3D ones right-handed), and the frame built around a given axis is orthonormal for each axis direction.", "quantifier": "all valid (non-zero, non-parallel) input axes", "why_tests_cant": "real-valued; failures live on special directions", "anchors": ["cpp/qugar/ref_system.cpp", "cpp/qugar/affine_transf.cpp: compute_coefs, create_reference_system_around_axis"]}
{"id": "C29", "title": "Monomial polynomials evaluate to their definition", "statement": "Evaluating a tensor-product monomial polynomial returns the sum over tensor indices of coefficient times the product of powers; gradient and Hessian are its partial derivatives; its derivative object is the derivative polynomial; the facet restriction is the restriction of the polynomial.", "quantifier": "every dimension, degree, coefficient list and point", "why_tests_cant": "all degrees including zero", "anchors": ["cpp/qugar/monomials_tp.cpp: Horner evaluation, create_derivative, extract_facet"]}
{"id": "C30", "title": "Bezier polynomials evaluate to their definition", "statement": "Evaluating a Bezier polynomial (de Casteljau) returns the Bernstein combination of its coefficients; the gradient is its derivative; the facet restriction equals the polynomial on that facet.", "quantifier": "every dimension, degree, coefficient list and point", "why_tests_cant": "all degrees and coefficients", "anchors": ["cpp/qugar/bezier_tp.cpp: casteljau, casteljau_der, extract_facet", "cpp/qugar/bezier_tp_utils.cpp"]}
{"id": "C31", "title": "Bernstein basis laws", "statement": "The Bernstein values returned for order n at x are the Bernstein polynomials, they sum to one for each x, are non-negative on [0,1], and the returned derivatives are their derivatives (hence sum to zero).", "quantifier": "every order and every real x", "why_tests_cant": "recurrences must be right for every order", "anchors": ["cpp/qugar/bezier_tp_utils.cpp: evaluate_Bernstein_value, evaluate_Bernstein"]}
{"id": "C32", "title": "Bezier coefficients bound the function: sign certificates are sound", "statement": "If all Bezier coefficients are positive (negative) the function is positive (negative) on the whole unit cube; values lie between the smallest and largest coefficient.", "quantifier": "every dimension, degree, coefficient list, and point of the unit cube", "why_tests_cant": "all polynomials, all points", "anchors": ["cpp/qugar/bezier_tp.cpp: sign, eval"]}
{"id": "C33", "title": "Monomial to Bezier conversion preserves the polynomial", "statement": "The Bezier polynomial created from a monomial polynomial has the same value at every point.", "quantifier": "every dimension, degree, coefficient list and point", "why_tests_cant": "all degrees", "anchors": ["cpp/qugar/monomials_tp.cpp: transform_coefs_to_Bezier", "cpp/qugar/bezier_tp.cpp: BezierTP(MonomialsTP)"]}
{"id": "C34", "title": "Bezier arithmetic is pointwise", "statement": "The Bezier product, sum, difference, negation, degree elevation and composition evaluate to the product, sum, difference, negation, same value and composition of the operands' values.", "quantifier": "every dimension 1..3, all degrees and coefficients and points", "why_tests_cant": "all degrees", "anchors": ["cpp/qugar/bezier_tp_utils.cpp: Bezier_product, Bezier add", "cpp/qugar/bezier_tp.cpp: operator*, operator+, operator-, negate, raise_order", "cpp/qugar/bezier_tp_utils_composition.cpp"]}
{"id": "C35", "title": "Lagrange bases interpolate", "statement": "The Lagrange basis for a list of distinct nodes is one at its node and zero at the others, sums to one at every point, reproduces polynomials of its degree, and the derivative routine returns its derivative. Chebyshev nodes are used when and only when requested.", "quantifier": "every order, list of distinct nodes and point", "why_tests_cant": "all orders and points", "anchors": ["cpp/qugar/lagrange_tp_utils.cpp: evaluate_Lagrange_basis_1D, evaluate_Lagrange_derivative_1D, create points"]}
{"id": "C36", "title": "Image/coefficient transforms of polynomials are affine", "statement": "Transforming the image (coefficients) of a Bezier polynomial from one interval to another transforms its values by the same affine map; extracting and re-assembling components loses nothing.", "quantifier": "every degree, coefficients and intervals with distinct ends", "why_tests_cant": "real-valued", "anchors": ["cpp/qugar/polynomial_tp.cpp: coefs_linear_transform, transform_image"]}
{"id": "C37", "title": "Point deduplication is idempotent, order-stable and tolerance-sound", "statement": "Points that coincide within the tolerance in all coordinates are always identified; points identified differ by at most (n-1) tolerances in each coordinate; the compacted list together with the old-to-new map reproduces each point up to that bound, the map is onto and every new point is one of the old points.", "quantifier": "every list of points, dimension and non-negative tolerance", "why_tests_cant": "chains of near-coincident points and sort orders are unbounded", "anchors": ["cpp/qugar/point.cpp: find_coincident_points, make_points_unique"]}
{"id": "C38", "title": "Mesh merging preserves cells and keeps connectivity valid", "statement": "Merging a mesh into another appends its cells with their points unchanged, merging coincident points does not move any cell vertex more than the deduplication bound, and after any sequence of additions and merges all connectivity entries refer to existing points, provided that the cells allocated in a mesh are filled before that mesh is merged into another one.", "quantifier": "every sequence of mesh operations", "why_tests_cant": "all histories", "anchors": ["cpp/qugar/reparam_mesh.cpp: merge, merge_coincident_points, add_full_cell, insert_cell_point, scale_points"]}
{"id": "C39", "title": "VTK node numbering is a permutation", "statement": "The VTU connectivity mask maps the order^dim tensor-product nodes to VTK order bijectively for each order, with the cell's corners first.", "quantifier": "every order >= 2 and dimension 1..3", "why_tests_cant": "all orders", "anchors": ["cpp/qugar/reparam_mesh.cpp: create_VTU_conn_mask"]}
{"id": "C40", "title": "Wirebasket deduplication keeps each edge once", "statement": "After purging, no wirebasket edge occurs twice (in either orientation), every original edge still occurs, and the removal is idempotent.", "quantifier": "every list of wirebasket edges", "why_tests_cant": "all edge lists and orientations", "anchors": ["cpp/qugar/reparam_mesh.cpp: sort_edge_points, sort_wirebasket_edges, purge_duplicate_wirebasket_edges"]}
{"id": "C41", "title": "Cell orientation flips are involutive and fix negative cells", "statement": "Permuting a cell's directions twice restores it and permuting keeps the same set of points; orienting positively flips exactly the cells with negative Jacobian determinant and leaves none negative.", "quantifier": "every order, dimension and mesh", "why_tests_cant": "all orders", "anchors": ["cpp/qugar/reparam_mesh.cpp: permute_cell_directions", "cpp/qugar/impl_reparam_mesh.cpp: orient_cells_positively", "cpp/include/qugar/vector.hpp: permute_vector_directions"]}
{"id": "C42", "title": "Roots of a height direction are ordered and bracketed", "statement": "After adjusting the roots of an interval: they are sorted, the first one is the lower end and the last one the upper end, all lie in the interval, no two distinct consecutive roots are closer than the tolerance unless snapped equal, and each kept root moved by at most a bounded number of tolerances.", "quantifier": "every interval, list of roots and tolerance", "why_tests_cant": "clusters of near-coincident roots", "anchors": ["cpp/qugar/impl_utils.cpp: RootsIntervals::add_root, sort_roots, adjust_roots"]}
{"id": "C43", "title": "Function combinators satisfy their pointwise laws", "statement": "Negation, addition, subtraction, squaring, multilinear interpolation and transformed functions evaluate to the pointwise combination, and their gradients and Hessians are the corresponding derivatives.", "quantifier": "all operand functions and points", "why_tests_cant": "all functions and points", "anchors": ["cpp/qugar/impl_funcs_lib.cpp: Negative, AddFunctions, SubtractFunctions, Square, DimLinear, TransformedFunction"]}
{"id": "C44", "title": "Primitive level sets: gradients and Hessians are exact", "statement": "For the sphere, cylinder, ellipsoid, annulus, torus, constant and plane primitives, the returned gradient and Hessian are the first and second derivatives of the returned value, and the sign of the value is negative inside and positive outside of the described body.", "quantifier": "all parameters and points", "why_tests_cant": "real-valued", "anchors": ["cpp/qugar/primitive_funcs_lib.cpp"]}
{"id": "C45", "title": "Bezier primitives equal the analytic primitives", "statement": "The Bezier (polynomial) version of each primitive has the same value (or at least the same sign) as the analytic version at every point.", "quantifier": "all parameters and points", "why_tests_cant": "coefficient tables, all parameters", "anchors": ["cpp/qugar/primitive_funcs_lib.cpp: SphereBzr, CylinderBzr, EllipsoidBzr, AnnulusBzr, TorusBzr, PlaneBzr"]}
{"id": "C46", "title": "TPMS level sets: gradients and Hessians are exact and periodic", "statement": "For each triply periodic surface the returned gradient and Hessian are the derivatives of the returned value and the value is periodic in every direction with period one over the wave number.", "quantifier": "all parameters and points", "why_tests_cant": "real-valued trigonometric identities", "anchors": ["cpp/qugar/tpms_lib.cpp"]}
{"id": "C47", "title": "Tolerance comparisons are coherent", "statement": "equal is reflexive and symmetric, exactly one of smaller/equal/greater holds for each pair, strict comparisons are asymmetric and transitive, and unique() returns a sorted list whose consecutive entries are not tolerance-equal and which represents each input value within a bounded distance.", "quantifier": "all reals and tolerances, all lists", "why_tests_cant": "real-valued; tolerance equality is not transitive, so corner cases hide in chains", "anchors": ["cpp/qugar/tolerance.cpp", "cpp/include/qugar/tolerance.hpp"]}
{"id": "C48", "title": "Local facet and edge numbering is a bijection", "statement": "Local facet ids correspond one to one to (direction, side) pairs; edge ids of a cube correspond one to one to (constant directions, sides), for all the ids.", "quantifier": "all facets and edges in each dimension", "why_tests_cant": "any dimension for facets", "anchors": ["cpp/qugar/impl_utils.cpp: get_local_facet_constant_dir, get_local_facet_side, get_local_facet_id, get_edge_constant_dirs, get_edge_constant_sides"]}
{"id": "C49", "title": "Ordering of tensor indices is a strict weak order consistent with equality", "statement": "operator< on tensor indices, used for ordered containers, is irreflexive, asymmetric and transitive, and two indices are incomparable only if equal.", "quantifier": "all pairs and triples of tensor indices in every dimension", "why_tests_cant": "unbounded pairs", "anchors": ["cpp/include/qugar/tensor_index_tp.hpp: operator<", "cpp/qugar/tensor_index_tp.cpp: TensorIndexTP::operator<"]}
{"id": "C50", "title": "Tabulated tanh-sinh rules are symmetric, normalised interior rules", "statement": "For every supported number of points n the tabulated tanh-sinh rule has n strictly increasing abscissae in (0,1) and n positive weights that add up to one up to rounding of the table, and is symmetric with respect to the midpoint.", "quantifier": "every supported n", "why_tests_cant": "a table of ten thousand numbers; unit tests look at a few rules", "anchors": ["cpp/qugar/quadrature_lib.cpp: TanhSinh::get_quad_data", "cpp/qugar/quadrature.cpp: TanhSinh::get_abscissa, TanhSinh::get_weight"]}
{"id": "C51", "title": "Unfitted boundary quadrature bookkeeping is consistent", "statement": "The quadrature of the unfitted boundary created for a list of cells has one entry per requested cell in the requested order; points, weights and normals have equal lengths and the per-cell counts add up to it; a cell without unfitted boundary contributes nothing, a cut cell its surface rule without the points that lie on facets carrying unfitted boundary, followed (only if requested) by the rules of exactly those facets with the outward unit facet normal, leaving out the facets on the grid boundary if these are excluded.", "quantifier": "every grid, domain, list of cells, number of points, option flags, and history of earlier calls", "why_tests_cant": "the combination of cell and facet statuses, flags and histories is unbounded; tests check total areas of a few shapes", "anchors": ["cpp/qugar/cut_quadrature.cpp: create_unfitted_bound_quadrature", "cpp/qugar/impl_quadrature.cpp: create_cell_unfitted_bound_quadrature, add_unf_bdry_quad, purge_facet_points"]}
{"id": "C52", "title": "Wirebasket generation selects exactly the edges on domain edges or on the level set", "statement": "Generating the wirebasket of a list of cells leaves points, cells and the earlier wirebasket unchanged and appends, cell by cell and edge by edge, exactly the non-degenerate edges that lie on an edge of the domain, or whose points are all zeros of the function and (in 3D) lie on a face of the domain.", "quantifier": "every mesh of dimension 2 or 3, order, list of cells, function, domain and tolerance", "why_tests_cant": "unbounded meshes, orders and functions; edges that start at a corner of the domain are a corner case", "anchors": ["cpp/qugar/impl_reparam_mesh.cpp: generate_wirebasket, add_wirebasket, check_edge_in_subdomain, check_degenerate_edge", "cpp/qugar/reparam_mesh.cpp: add_wirebasket_edges, check_edge_in_subdomain"]}
{"id": "C53", "title": "Reparameterizing a Bezier domain appends whole, valid cells inside the domain", "statement": "Reparameterizing a Bezier domain into a mesh does not fail, keeps the points, cells and wirebasket the mesh had, and appends whole cells whose connectivity uses each new point exactly once; all new points lie in the given domain box; every appended wirebasket edge has order-many points, all of them new.", "quantifier": "every polynomial (through the elimination oracle), mesh, order, dimension, tolerance and box", "why_tests_cant": "the recursion over dimensions, intervals and points is unbounded; tests look at the volume of a few shapes", "anchors": ["cpp/qugar/impl_reparam_bezier.cpp: ImplicitPolyReparam, reparameterize, compute_similar_intervals, process, insert_point_reparam"]}
{"id": "C54", "title": "Number of reparameterized cells", "statement": "The number of cells appended by the reparameterization of a Bezier domain is the number of towers of reference intervals (longer than the tolerance) whose last interval is inside the domain (volume), or whose last interval is followed by a change between inside and outside (level set).", "quantifier": "every family of polynomials, dimension, reference structure", "why_tests_cant": "unbounded numbers of roots and of nested intervals", "anchors": ["cpp/qugar/impl_reparam_bezier.cpp: compute_ref_intervals, check_all_ref_intervals_inactive, process"]}
{"id": "C55", "title": "Bezier domains without interfaces", "statement": "If no polynomial vanishes in the cell, its reparameterization appends nothing for the level set and, for the volume, one cell that fills the domain box if all the polynomials are negative and nothing if one of them is positive.", "quantifier": "all polynomials without zeros, meshes, boxes", "why_tests_cant": "all inputs without interfaces, any order and dimension", "anchors": ["cpp/qugar/impl_reparam_bezier.cpp: create, build, reparam_tensor_product, reparameterize"]}
{"id": "C56", "title": "Reference intervals are classified correctly", "statement": "On a line over a base point, a point farther than the tolerance from all the breaks is in the implicit domain (no polynomial is positive there) if and only if it is strictly inside one of the intervals the reparameterization takes for active.", "quantifier": "every family of continuous functions, base point and point of the line, for a root finder that finds all zeros", "why_tests_cant": "real-valued: a continuum of points and of functions", "anchors": ["cpp/qugar/impl_reparam_bezier.cpp: compute_all_intervals, compute_ref_intervals, check_point_inside", "cpp/qugar/impl_utils.cpp: RootsIntervals::adjust_roots"]}
{"id": "C57", "title": "Vertices of the reparameterization are on the interface or between interfaces", "statement": "Every vertex of the reparameterization of a level set is within the tolerance, along the height direction, of a zero of one of the polynomials over its base point when the number of roots is steady; in general, of a value produced by one of the documented backup strategies. Every vertex of a volume lies between two such values or ends of the line.", "quantifier": "every family of polynomials (through the root finder), mesh, order and dimension", "why_tests_cant": "unbounded inputs; tests check the area of a few shapes", "anchors": ["cpp/qugar/impl_reparam_bezier.cpp: compute_similar_intervals, process, insert_point_reparam"]}
{"id": "C58", "title": "Reparameterization of an unfitted domain", "statement": "create_reparameterization for a list of cells returns a mesh each of whose cells comes from one of the requested cells, cut (or full, for volumes), with all its vertices in the closed box of that cell; every requested full cell gives exactly one mesh cell (per request) with its vertices at the tensor-product nodes of its box, and none for level sets. The connectivity uses every point once before merging; merging points keeps the cells, keeps the entries valid and moves no vertex further than the merging bound. The result does not depend on the order of the requested cells, and requests outside of the grid are rejected.", "quantifier": "every grid, partition reachable by any history, list of requested cells, order, and routine for cut cells that only appends inside its box (the one for Bezier functions is proved to be such)", "why_tests_cant": "unbounded grids, histories and lists; tests compare volumes of a few shapes", "anchors": ["cpp/qugar/impl_reparam.cpp: create_reparameterization", "cpp/qugar/reparam_mesh.cpp: add_full_cells, merge_coincident_points"]}
{"id": "C59", "title": "General reparameterization: what is appended", "statement": "Reparameterizing the negative region, the zero level set, or the part on a facet, of a general implicit function in a box always succeeds, leaves what the mesh had as it was, and appends whole cells whose vertices are the new points, each used exactly once and all in the box; each appended wirebasket edge has order new points.", "quantifier": "every function (through its interval evaluations and its root finder, whatever they return in the line), mesh, order, facet, box wider than the tolerance, dimensions 2 and 3", "why_tests_cant": "unbounded numbers of subdivisions, roots and nested intervals", "anchors": ["cpp/qugar/impl_reparam_general.cpp: ImplicitGeneralReparam, reparameterize, reparameterize_facet, reparam_general, reparam_general_facet"]}
{"id": "C60", "title": "General reparameterization: the vertices are in the region, and cover it", "statement": "With sound interval evaluations and an exact root finder, every vertex made for the zero level set is a zero of the function, every vertex made for the negative region is a point where the function is not positive, and the cells of the negative region cover it.", "quantifier": "every function with the intermediate value property, sound interval evaluation, box and mesh", "why_tests_cant": "a continuum of functions and boxes; tests compare volumes of a few shapes", "anchors": ["cpp/qugar/impl_reparam_general.cpp: prune, compute_all_intervals, compute_similar_intervals, process, constructors"]}
{"id": "C61", "title": "Numbering conversions between lexicographical, DOLFINx and VTK orderings", "statement": "For any degree and dimension, the tables that translate between lexicographical, DOLFINx and VTK numberings of the nodes of a cell are permutations, inverse of each other, that send each node to the number that the other convention gives to the node at the same reference position; nodal values converted by them are the values of the same nodes. The tables for facets send each facet to the facet on the same side of the cell.", "quantifier": "every degree (nodes), dimensions 1 to 3, every array of nodal values", "why_tests_cant": "all degrees: an infinite family of tables; tests check a few degrees", "anchors": ["python/qugar/mesh/utils.py: DOLFINx_to_lexicg_nodes, lexicg_to_DOLFINx_nodes, VTK_to_lexicg_nodes, lexicg_to_VTK_nodes, *_faces"]}
{"id": "C62", "title": "Tensor-product index sets of a Cartesian mesh", "statement": "The sets of flat indices of a face, a corner, an edge, all the faces, and the interior of a tensor-product of points (or cells) hold exactly the indices whose tensor components lie on that face, corner, edge, on some face, on no face; each once and in increasing order. The edges given in DOLFINx numbering are those of the DOLFINx reference cell. Flat and tensor indices convert to each other.", "quantifier": "every number of points per direction, dimensions 1 to 3, every face, edge and corner", "why_tests_cant": "unbounded numbers of points per direction", "anchors": ["python/qugar/mesh/tp_index.py: TensorProdIndex"]}
{"id": "C63", "title": "Nodes and connectivity of a Cartesian mesh", "statement": "The mesh of a tensor-product of breakpoints (or of a box with equal cells) of any degree has one node per tensor-product point, at its coordinates; the nodes of a cell in DOLFINx order are at the reference positions of DOLFINx mapped to the cell's box. Neighbour cells share exactly the nodes of their common facet, and every node belongs to some cell.", "quantifier": "every list of breakpoints, degree, dimensions 1 to 3", "why_tests_cant": "unbounded numbers of cells and degrees", "anchors": ["python/qugar/mesh/tp_mesh.py: _create_Cartesian_mesh_conn, _create_Cartesian_mesh_nodes_from_points, TensorProductMesh"]}
{"id": "C64", "title": "Numbering of the cells and nodes of a mesh: original and DOLFINx ids", "statement": "Whatever reordering, partition among processes, active cells and merging of nodes is done when a mesh is created, the conversion of cell (node) ids from local to original numbers and back gives the same ids, original ids which are not in the process are given as -1, the cells have the nodes they were created with and merged nodes are those closer than the tolerance. The cells and facets of a face of a Cartesian mesh are those on that face.", "quantifier": "every mesh, numbering produced by DOLFINx, list of ids, set of active cells, tolerance and set of coincident nodes", "why_tests_cant": "every permutation chosen by the external partitioner and every list of queries", "anchors": ["python/qugar/mesh/mesh.py: Mesh, _find_in_array, _merge_coincident_points_in_mesh", "python/qugar/mesh/tp_mesh.py: get_cell_facets, get_face_facets"]}
{"id": "C65", "title": "Sets of facets of a mesh", "statement": "MeshFacets is a set of (cell, local facet) pairs: unique, intersection, difference and find are the set operations, the result has no repetition; to original numbering and back is the identity; the facets made from facet ids are exactly the pairs whose facet is among them, once per facet or once per adjacent cell as requested. The interior, the exterior and all the facets of a mesh are those owned by the process with two adjacent cells, with only one, and all of them.", "quantifier": "every mesh topology and every list of pairs or ids, every process", "why_tests_cant": "all topologies, all lists", "anchors": ["python/qugar/mesh/mesh_facets.py: MeshFacets, create_facets_from_ids, create_exterior_mesh_facets, create_interior_mesh_facets, create_all_mesh_facets"]}
{"id": "C66", "title": "Cells and facets of an unfitted domain by status (Python layer)", "statement": "The cut, full and empty cells of the process, the cut, full and empty facets for interior and for exterior integrals, all the facets and the cell and facet tags are exactly those that the C++ domain reports for the same cells and facets in its own numbering, whatever was asked before (the answers are cached): every answer is a set, exterior facets have exactly one of the three answers, tagged cells are in increasing order and each has the tag of its status. The number of Gauss points of a degree is the smallest that integrates it exactly; the active cells of an unfitted mesh without empty cells are the full and cut ones.", "quantifier": "every domain, mesh numbering, cell subset in the process, history of queries, tags and degrees", "why_tests_cant": "every history of cached queries, every numbering", "anchors": ["python/qugar/mesh/unfitted_domain.py: UnfittedDomain", "python/qugar/mesh/unfitted_domain_abc.py: UnfittedDomainABC", "python/qugar/mesh/unfitted_cart_mesh.py: UnfittedCartMesh"]}
{"id": "C67", "title": "The coefficients of custom integrals and the kernels that read them agree", "statement": "After packing the coefficients of an integral over cells or facets of an unfitted domain, the kernel generated for it finds, for every entity: in the cut ones exactly their own points, weights, normals of every custom quadrature, in order; in the empty ones nothing to do; in the others it runs the standard kernel. The coefficients of DOLFINx are left where the kernel expects them, and updating the packed coefficients with new values gives what packing from scratch would give.", "quantifier": "all integrals: types of coefficients, numbers of coefficients, sets of cut and empty entities, numbers of points per entity and quadratures", "why_tests_cant": "the layout depends on sizes and contents of all the entities; a wrong offset gives a wrong integral only for some sets of cut and empty entities", "anchors": ["python/qugar/dolfinx/custom_coefficients.py: CustomCoeffsPacker", "python/qugar/dolfinx/codegeneration.py: generated loaders and kernels", "python/qugar/mesh/mesh_facets.py"]}
{"id": "C68", "title": "Points of facet quadratures are placed on their own facet of the cell", "statement": "The points of the quadrature of a facet, given in the coordinates of the facet, are passed to the kernel as points of the reference cell on that facet with the same remaining coordinates (for cubes) or barycentric coordinates (for simplices), each at its own position; for interior facets this holds in both cells, so that both sides are evaluated at the same physical points, which are the points of the quadrature. Facet permutations take the reference facet onto itself.", "quantifier": "all cell types, local facets, points, lists of facets with any numbers of points and facet permutations", "why_tests_cant": "points of different facets are mapped together by gather/scatter; permutations other than the identity appear only in some meshes", "anchors": ["python/qugar/dolfinx/custom_quad_utils.py: map_facets_points, permute_facet_points", "python/qugar/dolfinx/custom_coefficients.py: _map_facet_quadrature, _create_quadrature_facet"]}
{"id": "C69", "title": "Versions of the dependencies", "statement": "The layer for FEniCSx is enabled exactly when DOLFINx, Basix, FFCx and UFL are installed with versions in the supported ranges (lower bound included, upper bound excluded, in the usual order of versions), and disabled, without exceptions, otherwise.", "quantifier": "all versions of the four packages, installed or not, and all ranges", "why_tests_cant": "all triples of numbers", "anchors": ["python/qugar/utils.py: check_version_in_range, has_FEniCSx"]}
{"id": "C70", "title": "Normals and measure of unfitted boundaries", "statement": "The mapped normal of an unfitted boundary is normal to the image of the boundary by the geometry of the mesh, points to the same side, is tangent to the mesh (for surfaces in space) and has norm one if requested. An integral with the measure of unfitted boundaries is the integral over the image: every point counts with its weight times the length (area) of the image of the unit tangent (unit parallelogram), in the subdomains given, be it one or many.", "quantifier": "all regular geometries, normals, subdomains, weights, integrands; curves and surfaces, in cells of the same dimension as the space or not", "why_tests_cant": "all Jacobians and normals", "anchors": ["python/qugar/dolfinx/boundary.py: mapped_normal, ds_bdry_unf"]}
{"id": "C71", "title": "Tables of the functions of the elements at the custom points", "statement": "For every cut entity the generated kernel evaluates, at the points of the quadrature of that entity (in the right side of interior facets, in facet coordinates for elements of facets), the derivatives of the components of the functions that the form needs: each entry read in the loops is the value of that function at that point. This is so for mixed, blocked and vector elements, any derivatives, any number of quadratures in the integral, whatever kernels were run before in the thread, and without writing out of bounds.", "quantifier": "every element structure, component, order of derivation, number of points and functions, number of tables and quadratures, history of the thread", "why_tests_cant": "layout in one scratch array computed from sizes of all the tables; state shared by all kernels of a thread", "anchors": ["python/qugar/dolfinx/codegeneration.py: _table_codegen_info, _resolve_mixed_component, _create_custom_data_callers", "python/qugar/dolfinx/fe_table.py: FETable.create_new_access_code", "python/qugar/dolfinx/_shim/qugar_basix_shim.cpp"]}
{"id": "C72", "title": "Forms over unfitted domains: the integrals, their subdomains and their quadratures", "statement": "Compiling a form (form_custom) integrates every integral of the form over the facets or cells the user asked for: an integral over the whole boundary over all the facets of the unfitted domain for exterior integrals, an integral with number n over the entities with the tag n, each with its own quadrature degree; no two of them are confused. The form given by the user is left as it was. A list of forms gives the list of compiled forms.", "quantifier": "every form: any number, kind, order of integrals, subdomain numbers, tuples and tags; every list of forms", "why_tests_cant": "all forms; the numbers given to integrals depend on all the others", "anchors": ["python/qugar/dolfinx/forms.py: _modify_everywhere_exterior_facet_integrals, form_custom", "python/qugar/dolfinx/quadrature_data.py: extract_quadrature_data", "python/qugar/dolfinx/integral_data.py: _get_integral_subdomain_ids"]}
{"id": "C73", "title": "The library of tabulation routines is built once and used complete", "statement": "However many threads and processes ask for the library at the same time, at most one builds at a time, it is built only once while the sources do not change, nobody gets a library that is not completely written, also if a process is killed at any moment, and after a change of the sources or of the environment it is rebuilt before use.", "quantifier": "any number of workers, all interleavings of their steps, crashes at any step, changes of the sources", "why_tests_cant": "schedules and crash points", "anchors": ["python/qugar/dolfinx/_shim/__init__.py: ensure_built, _file_lock"]}
{"id": "C74", "title": "A form is compiled once and only complete modules are loaded", "statement": "When any number of processes compile the same form with the same cache directory, at most one compiles it at a time, all that return have loaded the same complete module, generated by the version of the library they run; a failed or killed compilation does not prevent the next one; once compiled the form is never compiled again. The environment and the logging of the process are as before in every outcome, and the linker is run with the configured options.", "quantifier": "any number of processes, all interleavings, failures and crashes at any point, all linker commands", "why_tests_cant": "schedules and crash points", "anchors": ["python/qugar/dolfinx/jit.py: compile_forms, _compile_objects, _deduped_ldshared"]}
{"id": "C75", "title": "The two variants of a kernel compute what they should", "statement": "For cut entities the generated kernel computes what FFCx's kernel for the integral would compute with the custom quadrature: in every loop and at each of its points the weights, the tables that depend on the point and, over unfitted boundaries, the normals are those of that point, and everything else is what FFCx wrote; with FFCx's own quadrature both agree. For entities that are not cut the kernel is FFCx's one without the integrals over unfitted boundaries. Splitting the code into loops and writing it again loses nothing.", "quantifier": "every kernel of the shape FFCx generates: any number of loops, statements, tables, quadratures; all values of weights, tables, normals and constants; all texts", "why_tests_cant": "all kernels and all values; the transformations are done on text", "anchors": ["python/qugar/dolfinx/_kernel_body.py: KernelBody", "python/qugar/dolfinx/parsing_utils.py: get_pairing_brackets, dtype_to_C_str, parse_dtype_C", "python/qugar/dolfinx/codegeneration.py: _create_custom_function, _create_non_custom_quad_function"]}
{"id": "C76", "title": "Quadratures through the Python layer belong to the cells and facets they are returned for", "statement": "create_quad_custom_cells, create_quad_unf_boundaries and create_quad_custom_facets return, for local cells or facets given in any order, an object with these entities and, one after the other in that order, the points and weights (and normals) of the rule that the original cell or facet of each one has in the C++ domain, with the smallest number of Gauss points of the requested degree; the points of a facet, mapped to the reference cell of DOLFINx, are on the same side with the same coordinates; the rules of unfitted boundaries have no point of a facet. Nothing depends on previous calls, and valid requests never fail. The cells that C++ uses are the entries of the given array.", "quantifier": "every mesh numbering (with or without active cells), every list of local cells or facets, degree, kind of integral, history of calls, layout of the arrays", "why_tests_cant": "all numberings and all orders", "anchors": ["python/qugar/mesh/unfitted_domain.py: create_quad_custom_cells, create_quad_unf_boundaries, create_quad_custom_facets, get_num_Gauss_points", "python/nanobind_wrappers/cut_quad.cpp", "python/qugar/quad/custom_quad.py"]}
{"id": "C77", "title": "Meshes of reparameterizations in DOLFINx", "statement": "create_reparam_mesh followed by create_mesh gives a DOLFINx mesh with one cell per cell of the reparameterization (or one segment per edge of the wirebasket), whose nodes are the vertices of that cell in DOLFINx's order, so that the geometry of DOLFINx is the interpolant of the points; the cell of a full cell of the grid is mapped affinely onto it, and cells on a curve follow it to the order of the degree. With several processes the cells of the mesh are those of the domain, each one owned by one process.", "quantifier": "every history of a reparameterization, dimensions 1 to 3, all degrees, volumes and level sets, cells and wirebasket, any number of processes", "why_tests_cant": "all degrees, numberings and histories", "anchors": ["python/qugar/reparam/reparam.py: identity_partitioner, UnfDomainReparamMesh.create_mesh, create_reparam_mesh", "python/nanobind_wrappers/reparam.cpp: get_conn_array"]}
{"id": "C78", "title": "Implicit functions created and evaluated from Python", "statement": "Each factory of qugar.impl returns, for valid arguments and in both representations (Bezier or not), the function its documentation describes, with the documented defaults, exact values and exact gradients: disks, spheres, ellipses, ellipsoids, cylinders, annuli, tori, planes, lines, constants, multilinear functions, boxes, the six triply periodic surfaces; negatives, sums, differences and affine transformations of any functions obtained before are the pointwise ones. Invalid arguments raise the documented exceptions. eval and grad return the values and gradients at the rows of the array of points, in order and with its type, and refuse arrays of other shapes.", "quantifier": "all arguments (radii, centres, axes, arrays of any shape), both representations, debug and release builds, every function obtained by any sequence of calls, all arrays of points", "why_tests_cant": "all real parameters and points, all compositions", "anchors": ["python/qugar/impl/impl_function.py", "python/nanobind_wrappers/impl_functions.cpp"]}
{"id": "C79", "title": "Solving problems again uses the present coefficients and nothing of the past", "statement": "LinearProblem.solve, called any number of times while coefficients, constants and boundary values change in between, gives each time the system assembled once with coefficients packed at that moment and its solution with the options given for that problem; in any sequence of calls of F and J of a NonlinearProblem, which reuses its coefficients, every residual and Jacobian is the one of freshly packed coefficients. The data used for each integral are those of that integral. Problems do not influence each other. assemble_scalar uses the coefficients it is given.", "quantifier": "all histories of calls, all changes of the coefficients in between, all forms and backends, all sequences of creations and deletions of problems", "why_tests_cant": "histories: caches, shared default arguments and a global database of options", "anchors": ["python/qugar/dolfinx/petsc.py: LinearProblem, NonlinearProblem, _pack_coefficients, _update_coefficients", "python/qugar/dolfinx/custom_coefficients.py: CustomCoeffsPacker", "python/qugar/dolfinx/_dolfinx_patches.py"]}
{"id": "C80", "title": "VTK files contain the mesh", "statement": "After write_VTK_file(name) returns, name.vtu and name_wb.vtu are well-formed VTK files from which a reader recovers exactly the points (completed with zeros to three coordinates), the cells (respectively the wires) with their nodes in VTK's order, and the cell types; name.vtmb is a multi-block file through which a reader finds both grids; no other file changes. Without wires only name.vtu is written.", "quantifier": "all meshes of dimension 1 to 3 in 1 to 3 dimensions, of any order, with any number of points, cells and wires; all file names, previous contents of the file system and files that cannot be opened", "why_tests_cant": "all meshes and names; the reader is another program", "anchors": ["cpp/qugar/reparam_mesh.cpp: write_reparam_to_VTK_cells, ReparamMesh::write_VTK_file"]}
{"id": "C81", "title": "Cartesian meshes are created as requested", "statement": "create_unfitted_impl_Cartesian_mesh accepts exactly the sensible inputs (two or three directions, a positive number of cells per direction or one for all, corners in order with one coordinate per direction, one floating point type) and returns a mesh whose cells are, in the lexicographical order, the non-empty cells (or all the cells, if asked for) of the uniform grid between the corners, with the nodes of each cell at the nodes of the Lagrange element in its box, on the same grid in which the domain is described; no cell where the function takes a negative or zero value is left out, unless its quadrature is empty. create_Cartesian_mesh returns the mesh of all the cells. get_cell_bbox returns the box of a cell, get_cell_tensor_index its index. create_facet_bdry_tags gives each facet on face f of the mesh, and no other, the tag f.", "quantifier": "all functions, sizes, corners, degrees, types, combinations of optional arguments, ghost modes; all numberings of cells and facets by DOLFINx", "why_tests_cant": "all inputs and renumberings", "anchors": ["python/qugar/mesh/tp_mesh.py: TensorProductMesh, CartesianMesh, create_Cartesian_mesh", "python/qugar/mesh/unfitted_cart_mesh.py", "python/qugar/mesh/mesh.py: Mesh._create_mesh"]}
{"id": "C82", "title": "Plots show what the objects contain", "statement": "quadrature_to_PyVista returns three sets of points: the quadrature points of the cut cells, of the unfitted boundary and of the facets (cut, or with unfitted boundary) in physical coordinates, each with its weight, the ids of its cell and facet and, for the boundary, the unit outer normal. cart_grid_tp_to_PyVista returns the cells of the grid with their ids. unfitted_domain_to_PyVista returns exactly the cells whose status was asked for, with their status; unfitted_domain_facets_to_PyVista exactly the facets whose status was asked for. reparam_mesh_to_PyVista returns the cells and the wirebasket of a reparameterization with the points of every cell in VTK's order.", "quantifier": "all grids of dimensions 2 and 3, domains, numbers of points, earlier calls, numberings of the cells by DOLFINx, combinations of the flags; all reparameterizations and histories of them", "why_tests_cant": "all domains, numberings and histories", "anchors": ["python/qugar/plot/pyvista_tools.py"]}
{"id": "C83", "title": "The C code of FFCx is read as it is written", "statement": "KernelBody.from_ffcx splits the text of an integral into what comes before the function, its signature and name, the type of its coefficients, the loops over quadrature points (text before, header, body, and the name of the quadrature, found in the tables or, without tables, in the weights), the text after the loops and what comes after the function; every header of a loop over points in the text is found and nothing else is; render gives the function back character by character, or with a suffix in its name and no other change. Loops in which no quadrature can be recognised are refused.", "quantifier": "all texts of the shape FFCx writes: any number of loops, any spacing, any bodies with paired brackets, names, parameters, types and surrounding text; for the headers, all texts", "why_tests_cant": "all texts: regular expressions with backtracking", "anchors": ["python/qugar/dolfinx/_kernel_body.py: KernelBody.from_ffcx, render, render_body", "python/qugar/dolfinx/parsing_utils.py"]}
{"id": "C84", "title": "The transformations of the C code change what they should and nothing else", "statement": "In the generated kernel: the bound of every loop is the run-time number of points of its quadrature; the static tables of FFCx, from the comment that introduces them to the last one, are removed; every reference to a constant that stands for a component of the normal becomes that component of the normal at the point, and other constants are kept; every access to a table that varies with the point becomes the access to the run-time table with the function and point it had (and the side, in interior facets), other accesses are kept; all other text is unchanged. Code is accepted exactly if it uses the local entities and permutations of all the sides of its kind of integral, the entity, type and dimensions are supported and no quadrature has tensor factors.", "quantifier": "all texts with any number of constants, accesses, tables, any spacing; all kinds of integrals, entities and types", "why_tests_cant": "all texts: sequences of substitutions with regular expressions", "anchors": ["python/qugar/dolfinx/_kernel_body.py: erase_static_declarations, rewrite_table_accesses, dynamic_loop_bounds, substitute_normals", "python/qugar/dolfinx/fe_table.py: FETable.create_new_access_code", "python/qugar/dolfinx/codegeneration.py: _check_FFCx_input"]}
{"id": "C85", "title": "Tables of basis functions are recognised and always in the same order", "statement": "extract_FE_tables finds every table declared in the code and for each one reads its type, element number, component, derivatives, averages, quadrature and sizes as they are written; the tables are returned sorted by element in an order that does not depend on the numbers FFCx gives to the elements, nor on the order in which elements appear in the code, and tables of the same element keep their order, so that compiled forms can be reused by other sessions.", "quantifier": "all texts with any number of declarations of any sizes and values; all numberings of the elements, all orders of the elements, any argsort", "why_tests_cant": "all texts and numberings: sessions are histories", "anchors": ["python/qugar/dolfinx/fe_table.py: FETable, _parse_FE_extra_options, _sort_FE_tables, extract_FE_tables"]}
{"id": "C86", "title": "Arrays and objects keep their contents whatever happens to the objects they come from", "statement": "Every array obtained from a box, grid, quadrature, cut quadrature, reparameterization or query of a domain, and every object obtained from another one (the grid and function of a domain, the domain of a grid), keeps for as long as it is held the contents the attribute has, in whatever order the objects and arrays are created, copied and dropped: a program cannot tell that arrays are views of memory of other objects. No freed memory is accessed, no object is destroyed twice, and no object stays in memory that cannot be used any more.", "quantifier": "all histories of creating objects, taking attributes, copying and dropping variables; all data", "why_tests_cant": "all histories: dangling views need particular orders of destruction, and may read the old values anyway", "anchors": ["python/nanobind_wrappers/common.cpp", "python/nanobind_wrappers/quad.cpp", "python/nanobind_wrappers/cut_quad.cpp", "python/nanobind_wrappers/reparam.cpp", "python/nanobind_wrappers/unf_domain.cpp", "python/nanobind_wrappers/wrapper_utils.hpp"]}
{"id": "C87", "title": "The generated function adds to the element tensor the sum over the points of each cut entity", "statement": "When DOLFINx calls the function generated for an integral with the packed array of coefficients, the element tensor afterwards is: for a cut entity, what the loops of the form compute with the weights, the normals and the basis functions evaluated at the points of the quadratures of that entity and with its own coefficients (for a plain integrand: the old entry plus the sum over the points); for an empty entity, the tensor unchanged; for all others, what FFCx's own kernel computes. The result does not depend on what earlier calls left in memory, nor on memory that was never written.", "quantifier": "all integrals with kernels of FFCx's shape, all sets of cut, empty and other entities, numbers of points, coefficients, all entities, all states left by earlier calls, all initial tensors", "why_tests_cant": "all data and all earlier calls: packing, loading, tabulation and kernel must agree in every offset", "anchors": ["python/qugar/dolfinx/codegeneration.py: _create_new_function, _create_custom_function", "python/qugar/dolfinx/custom_coefficients.py", "python/qugar/dolfinx/fe_table.py", "python/qugar/dolfinx/_kernel_body.py", "python/qugar/dolfinx/_shim/qugar_basix_shim.cpp"]}
{"id": "C88", "title": "The generated module is complete and consistent, and the data describe its functions", "statement": "generate_code returns, for a form of any number of integrals with any number of quadratures, code in which each integral keeps its place, its declarations and a function with the name and the parameters FFCx gave it; what surrounds the function is kept; no function is defined twice. Called with a positive offset the function calls the custom variant with the same arguments and the position of the data of the entity, with a negative one the original variant with the same arguments, otherwise none. The calls of the loaders leave in the variables of each quadrature, and of no other, pointers to its own data. The list of integral data is in the order of the integrals; each one has exactly the quadratures and tables of its integral, in the order of the code, its ids and dimensions, and says whether dimensions are mixed: what the packer needs to write what the kernel reads. Unknown quadratures, integrals over several kinds of cells and lists of different lengths are refused.", "quantifier": "all forms: numbers of integrals, quadratures and tables, names, kinds of integrals and flags of the data; all texts of FFCx's shape; all memories and offsets", "why_tests_cant": "all forms and all memories", "anchors": ["python/qugar/dolfinx/codegeneration.py: generate_code, _modify_header, _IntegralModifier (create_new_code, _create_new_function, _create_custom_data_loaders, _create_custom_data_callers, _create_shim_decls)", "python/qugar/dolfinx/integral_data.py: IntegralData, extract_integral_data"]}
{"id": "C89", "title": "Compiling a form does not change what forms mean", "statement": "Compiling a form with form_custom gives the same compiled form (integrals, subdomains, and so where every integral is evaluated) whatever forms were compiled before, in any order, any number of times and even if compilations failed; forms that were passed to it keep their integrals, with their subdomains and metadata, so that they can be added to others, compiled again or given to other functions; the dictionaries of options given are not changed.", "quantifier": "all histories of calls with all forms, shared integrals and metadata, failures in the compiler or in the creation of the form", "why_tests_cant": "all histories of calls: UFL objects are shared between forms and modified in place", "anchors": ["python/qugar/dolfinx/forms.py: form_custom, _modify_everywhere_exterior_facet_integrals"]}
{"id": "C90", "title": "An integral over cells is the sum over the nodes of the cut cells plus the standard integral in the full ones", "statement": "When DOLFINx assembles an integral over cells with the functions generated for it and the coefficients packed for it, no step fails, and the assembled tensor (number, vector or, with pairs of degrees of freedom, matrix) is the initial one plus, for every cell of the integral, once: in a cut cell, the sum over the nodes of the rules of its part inside of the domain (and of the unfitted boundary in it) of what the form computes with the weight, the normal, the basis functions at the node and the coefficients of the cell; in an empty cell, nothing; in the others, what the kernel of FFCx computes. It does not matter what was asked of the domain, computed with quadratures or assembled before, nor how DOLFINx numbers the cells.", "quantifier": "all domains and meshes, subsets and orders of the cells of an integral, degrees, coefficients, kernels of FFCx's shape, histories of queries, quadratures and calls, initial tensors", "why_tests_cant": "all domains, numberings and histories: classification, renumbering, quadratures, packing, tabulation and kernel must agree in every index", "anchors": ["python/qugar/dolfinx/custom_coefficients.py: _CustomCoeffsPackerIntegral", "python/qugar/mesh/unfitted_domain.py: get_cut_cells, get_empty_cells, create_quad_custom_cells, create_quad_unf_boundaries", "python/qugar/dolfinx/codegeneration.py", "cpp/qugar/cut_quadrature.cpp"]}
{"id": "C91", "title": "An integral over exterior facets is the sum over the nodes of the cut facets plus the standard integral in the full ones", "statement": "When DOLFINx assembles an integral over exterior facets (facets of the boundary of the mesh or facets in the unfitted boundary) with the functions generated for it and the coefficients packed for it, no step fails, and the assembled tensor is the initial one plus, for every facet of the integral, once: in a cut facet, the sum over the nodes of the rule of the facet, placed in the unit cell on the side of that facet, of what the form computes with the weight, the basis functions at the node and the coefficients of the cell; in an empty facet, nothing; in the others, what the kernel of FFCx computes. It does not matter what was asked of the domain, computed with quadratures or assembled before, nor how DOLFINx numbers cells and facets.", "quantifier": "all domains and meshes, subsets and orders of the facets of an integral, degrees, coefficients, kernels of FFCx's shape, histories of queries, quadratures and calls, initial tensors", "why_tests_cant": "all domains, numberings and histories: classification, renumbering of cells and facets, quadratures, mapping of the points, packing, tabulation and kernel must agree in every index", "anchors": ["python/qugar/dolfinx/custom_coefficients.py: _CustomCoeffsPackerIntegral (_create_quadrature_facet, _map_facet_quadrature, _get_custom_entities_ids, _get_empty_entities_ids)", "python/qugar/mesh/unfitted_domain.py: get_cut_facets, get_empty_facets, create_quad_custom_facets", "python/qugar/dolfinx/custom_quad_utils.py: map_facets_points", "cpp/qugar/cut_quadrature.cpp"]}
{"id": "C92", "title": "Integrals over an unfitted domain computed with the quadratures of all its cells", "statement": "For every grid in two or three dimensions and every level set function, building the domain and creating the quadrature of all the cells succeeds whatever was asked before, and the sum over the cells of volume times weights times values of a function differs from the (Lebesgue) integral of the function over the part of the grid in which the level set function is negative by at most: for each cell in which interval arithmetic does not determine the sign, the greater of Algoim's error in that cell and of the bound of the function times (classification tolerance plus Algoim's error in the volume); and, in the others, only the rounding of the table of Gauss points, if the function is a polynomial of degree up to 2n-1 in each direction. In particular the weights add up to the volume of the domain up to those terms. For level set functions given as polynomials the tolerance is relative to the volume of the cell.", "quantifier": "all valid grids, level set functions with measurable negative region and sound interval arithmetic, integrands, numbers of points 1 to 100, histories of quadrature requests", "why_tests_cant": "integrals over all domains and grids: it needs that the cells tile the grid, that the classification is right in every cell and that each rule integrates exactly what it should; a test compares a few numbers", "anchors": ["cpp/qugar/impl_unfitted_domain.cpp", "cpp/qugar/cut_quadrature.cpp: create_quadrature", "cpp/qugar/impl_quadrature.cpp", "cpp/qugar/quadrature.cpp", "cpp/qugar/quadrature_lib.cpp", "cpp/qugar/cart_grid_tp.cpp"]}
{"id": "C93", "title": "Affine transformations and reference systems from Python: arguments by position or by name", "statement": "create_affine_transformation and create_ref_system called with positional and keyword arguments, in any mixture and order that Python allows, choose the constructor whose parameters are given: the result has the dimension of the arrays and maps points as documented (translation; scaling; orthonormal axes along the given ones with the given scales, 1 by default; the given coefficients), the reference system is the documented one (first vector along the axis in 2D, third one in 3D, first one if two axes are given). Calls that fit no signature (missing, repeated or unknown arguments, arrays of other lengths, mixed dimensions) raise TypeError. Without arguments the result always has dimension 2.", "quantifier": "all calls: all splits into positional and keyword arguments, all orders of keyword arguments, all values", "why_tests_cant": "thirteen overloads of one name are tried one after another: a test uses a few calls, an overload could capture the calls meant for another one", "anchors": ["python/nanobind_wrappers/common.cpp: declare_affine_transf, declare_ref_system", "cpp/qugar/affine_transf.cpp", "cpp/qugar/ref_system.cpp"]}
{"id": "C94", "title": "Functionals assembled over cells of an unfitted domain are integrals over the part inside", "statement": "Assembling a functional over cells of an unfitted domain (custom form, packed coefficients, generated functions called by DOLFINx) succeeds, whatever was asked of the domain, of the library and of the thread before, and gives the integral of the integrand over the part of those cells where the level set function is negative. The error is bounded: the error of the static rule of FFCx per unit of volume of full cells, plus, for each cell near the interface, the greatest of the error of Algoim's rule and of the bound of the integrand times the measure misplaced by the classification. If the cells are all the cells of the grid, in any order or shared among processes (each cell of one), the sum is the integral over the whole domain. In particular for finite element functions with any number of functions per cell. Likewise vectors and matrices: entry d of the assembled tensor is, with the same error, the integral of the integrand of that entry (for a load vector, a finite element function times the global basis function d).", "quantifier": "all grids, level set functions, integrands, coefficients, subsets and orders of cells, distributions among processes, histories of the caches, threads", "why_tests_cant": "a test compares one integral with a tolerance that hides the contributions of some cells; the property joins the decomposition, the quadratures, the packer, the generated code and the loop of DOLFINx", "anchors": ["python/qugar/dolfinx/custom_coefficients.py", "python/qugar/dolfinx/codegeneration.py", "python/qugar/mesh/unfitted_domain.py", "python/qugar/quad/custom_quad.py", "cpp/qugar/impl_unfitted_domain.cpp", "cpp/qugar/impl_quadrature.cpp", "cpp/qugar/quadrature_lib.cpp"]}
{"id": "C95", "title": "Functionals assembled over facets of the boundary of the grid are integrals over their parts inside", "statement": "Assembling a functional, a vector or a matrix over facets of the boundary of the grid (custom form, packed coefficients, generated functions called by DOLFINx) succeeds, whatever was asked of the domain, of the library and of the thread before, and adds to the result the integral of the integrand over the parts of those facets inside of the domain, in the coordinates of each facet placed in the right direction and on the right side of its cell. The error is bounded: the error of the static rule of FFCx per unit of area of full facets, plus, for each facet of a cell near the interface, the greatest of the error of Algoim's rule and of the bound of the integrand times the measure misplaced by the classification. If the facets are all those of a side of the grid, in any order and numbering, the sum is the integral over the part of the whole side.", "quantifier": "all grids, level set functions, integrands, coefficients, subsets and orders of facets, sides, numberings of cells and facets, histories of the caches", "why_tests_cant": "a wrong direction or side, a facet taken twice or left out changes a test on symmetric data by nothing; the property joins the numberings of DOLFINx and of the library, the classification of facets, quadratures, mapping of points, packer, generated code and the loop of DOLFINx", "anchors": ["python/qugar/dolfinx/custom_coefficients.py", "python/qugar/dolfinx/codegeneration.py", "python/qugar/mesh/unfitted_domain.py", "python/qugar/quad/custom_quad.py", "python/qugar/dolfinx/custom_quad_utils.py", "cpp/qugar/impl_unfitted_domain.cpp", "cpp/qugar/cut_quadrature.cpp", "cpp/qugar/cart_grid_tp.cpp"]}
{"id": "C96", "title": "Functionals assembled over the unfitted boundary are integrals over the surface", "statement": "Assembling a functional, a vector or a matrix with the measure of the unfitted boundary over cells of an unfitted domain succeeds, whatever was asked of the domain, of the library and of the thread before, and adds to the result the integral of the integrand over the part of the surface (where the level set function vanishes) in those cells: only cut cells contribute, each with the points of Algoim on the surface inside of the cell that are not on facets classified as unfitted boundary, with weights that become the area of the surface in the cell mapped to its box, and with normals of length 1 orthogonal to the surface in the box, also when the cells are anisotropic. The error is bounded: for each cell near the interface, the greatest of the error of the points of Algoim and of the bound of the integrand times the area of the surface misplaced by the classification; cells away from the interface and full or empty cells add nothing, exactly. If the cells are all the cells of the grid, the sum is the integral over the whole surface.", "quantifier": "all grids (any dimension, anisotropic cells), level set functions, surface measures that give no mass to shared faces of cells, integrands of the point and of the normal, coefficients, subsets and orders of cells, histories of the caches, threads", "why_tests_cant": "tests compare the perimeter or area of a circle or sphere on a mesh of squares, where scaling of weights and normals by the cell sizes cannot be told from a global factor; the static branch must add exactly nothing in every uncut cell; the property joins decomposition, quadratures, packer, generated code and the loop of DOLFINx", "anchors": ["python/qugar/dolfinx/boundary.py", "python/qugar/dolfinx/custom_coefficients.py", "python/qugar/dolfinx/codegeneration.py", "python/qugar/dolfinx/_kernel_body.py", "python/qugar/mesh/unfitted_domain.py: create_quad_unf_boundaries", "cpp/qugar/cut_quadrature.cpp", "cpp/qugar/impl_quadrature.cpp"]}
