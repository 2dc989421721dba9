{
 "claims": [
  {
   "property": "C01",
   "status": "proved",
   "theorems": [
    "Verif.Props.C01_local_range_tiles",
    "Verif.Props.C01_local_range_balanced",
    "Verif.Props.C01_exactly_one_rank"
   ],
   "note": ""
  },
  {
   "property": "C02",
   "status": "proved",
   "theorems": [
    "Verif.Props.C02_index_owner_spec"
   ],
   "note": ""
  },
  {
   "property": "C03",
   "status": "partial",
   "theorems": [
    "Verif.Props.C03_radix_sort_unsigned_partial",
    "Verif.Props.C03_radix_sort_signed_partial",
    "Verif.Props.C03_refuted_long_range",
    "Verif.Props.C03_refuted_wide_digit"
   ],
   "note": "Proved for 1 <= BITS < w and length <= 2^w; refuted outside: counters and cursors have the key type and wrap, and bucket_size truncates to 0 when BITS >= w."
  },
  {
   "property": "C04",
   "status": "proved",
   "theorems": [
    "Verif.Props.C04_sort_by_perm",
    "Verif.Props.C04_sort_by_perm_columns",
    "Verif.Props.C04_overloads_agree"
   ],
   "note": "Row count at most 2^w (w-bit values), digit width below w: always true for the instantiations in the code (32/64 bit, BITS=16). The 16-bit instantiation is covered by C03_refuted_wide_digit."
  },
  {
   "property": "C05",
   "status": "proved",
   "theorems": [
    "Verif.Props.C05_ranges_tile",
    "Verif.Props.C05_sizes",
    "Verif.Props.C05_unique_owner"
   ],
   "note": ""
  },
  {
   "property": "C06",
   "status": "proved",
   "theorems": [
    "Verif.Props.C06_global_of_local_inverse",
    "Verif.Props.C06_local_of_global_inverse",
    "Verif.Props.C06_unknown_is_minus_one",
    "Verif.Props.C06_answer_iff_present",
    "Verif.Props.C06_global_indices"
   ],
   "note": "Hypothesis: ghosts are distinct and not owned here, as IndexMap requires."
  },
  {
   "property": "C07",
   "status": "proved",
   "theorems": [
    "Verif.Props.C07_in_edges_exact",
    "Verif.Props.C07_nothing_in_flight",
    "Verif.Props.C07_no_deadlock",
    "Verif.Props.C07_terminates",
    "Verif.Props.C07_refuted_same_tag_consecutive_calls"
   ],
   "note": "A job is any sequence of calls on one communicator; the documented tag requirement (different tags for consecutive calls) is a hypothesis, and is shown necessary by C07_refuted_same_tag_consecutive_calls. MPI matching and MPI_Ibarrier are modelled by their standard semantics."
  },
  {
   "property": "C08",
   "status": "partial",
   "theorems": [
    "Verif.Props.C08_in_edges_exact_partial",
    "Verif.Props.C08_receive_count",
    "Verif.Props.C08_nothing_in_flight",
    "Verif.Props.C08_no_deadlock",
    "Verif.Props.C08_terminates",
    "Verif.Props.C08_refuted_consecutive_calls"
   ],
   "note": "Proved for one call with no other PCX traffic on the communicator. Refuted for two consecutive calls: all calls use one tag, so a message of the second call can be taken by a rank still receiving in the first."
  },
  {
   "property": "C09",
   "status": "proved",
   "theorems": [
    "Verif.Props.C09_distribute_from_postoffice",
    "Verif.Props.C09_distribute_data",
    "Verif.Props.C09_null_comm_with_data"
   ],
   "note": "Requested indices are valid rows (as the code asserts). NBX results enter as any ordering of the in-edges (C07). A row is one element."
  },
  {
   "property": "C10",
   "status": "proved",
   "theorems": [
    "Verif.Props.C10_forward_scatter"
   ],
   "note": "MPI_Neighbor_alltoall(v) is a pure exchange (`Model/Exchange`); schedules below that call are trusted to MPI."
  },
  {
   "property": "C11",
   "status": "proved",
   "theorems": [
    "Verif.Props.C11_reverse_scatter",
    "Verif.Props.C11_adjoint",
    "Verif.Props.C11_conservation"
   ],
   "note": "Same trusted exchange as C10."
  },
  {
   "property": "C12",
   "status": "partial",
   "theorems": [
    "Verif.Props.C12_inner_product",
    "Verif.Props.C12_inner_size_check",
    "Verif.Props.C12_squared_norm",
    "Verif.Props.C12_l2",
    "Verif.Props.C12_l1",
    "Verif.Props.C12_linf_partial",
    "Verif.Props.C12_refuted_linf_reads_ghost",
    "Verif.Props.C12_refuted_linf_out_of_bounds"
   ],
   "note": "linf only for ranks that own at least one entry: with none the code dereferences max_element of an empty range (refuted). Arithmetic is exact (a commutative ring with conjugation), not floating point."
  },
  {
   "property": "C13",
   "status": "partial",
   "theorems": [
    "Verif.Props.C13_same_span_unit_norm",
    "Verif.Props.C13_orthonormal_real_partial",
    "Verif.Props.C13_dependent_rejected_real",
    "Verif.Props.C13_refuted_complex",
    "Verif.Props.C13_refuted_complex_dependent"
   ],
   "note": "Holds for real scalars. Refuted for complex scalars: the projection coefficient is inner_product(basis[i], basis[j]) with the conjugate on the wrong argument. Exact arithmetic."
  },
  {
   "property": "C14",
   "status": "proved",
   "theorems": [
    "Verif.Props.C14_owned_rows",
    "Verif.Props.C14_ghost_rows",
    "Verif.Props.C14_column_map"
   ],
   "note": "The stacking constructor is not modelled. Indices are naturals (no overflow of the 64-bit byte counts). Arbitrary insertion histories on every rank."
  },
  {
   "property": "C15",
   "status": "proved",
   "theorems": [
    "Verif.Props.C15_life_cycle",
    "Verif.Props.C15_counts"
   ],
   "note": "A throwing call leaves the object unchanged because the check is the first statement of every member; this is how the model writes it."
  },
  {
   "property": "C16",
   "status": "partial",
   "theorems": [
    "Verif.Props.C16_error_iff_missing_partial",
    "Verif.Props.C16_insert_partial",
    "Verif.Props.C16_add_partial",
    "Verif.Props.C16_set_partial",
    "Verif.Props.C16_add_order_independent",
    "Verif.Props.C16_refuted_blocked_missing"
   ],
   "note": "Refuted for inserting scalar-addressed rows with block size larger than the matrix block (insert_blocked_csr): only the first column of each block is looked up, so a missing second column overwrites an unrelated entry without error. The positive theorems assume block-complete patterns on that path."
  },
  {
   "property": "C17",
   "status": "partial",
   "theorems": [
    "Verif.Props.C17_refuted_partial_update",
    "Verif.Props.C17_unaddressed_unchanged_partial"
   ],
   "note": "The full claim is false in the code: entries before the missing one are already written. Proved instead: entries not addressed by the call never change."
  },
  {
   "property": "C18",
   "status": "proved",
   "theorems": [
    "Verif.Props.C18_owner",
    "Verif.Props.C18_others",
    "Verif.Props.C18_conserved",
    "Verif.Props.C18_ghost_rows_zero",
    "Verif.Props.C18_pattern"
   ],
   "note": "Compact block mode. Scalars form a commutative monoid (no rounding). Asserted lookups are total in the model; `MatOk`, which `C18_pattern` derives for every finalised pattern, makes them hit."
  },
  {
   "property": "C19",
   "status": "proved",
   "theorems": [
    "Verif.Props.C19_mult",
    "Verif.Props.C19_multT"
   ],
   "note": "Exact arithmetic; the exchange is the trusted one of C10/C11."
  },
  {
   "property": "C20",
   "status": "proved",
   "theorems": [
    "Verif.Props.C20_entry",
    "Verif.Props.C20_twice",
    "Verif.Props.C20_sorted",
    "Verif.Props.C20_layout",
    "Verif.Props.C20_col_map"
   ],
   "note": "Order needs only that no row of `A` stores a column twice. The sends of the three parallel buffers are one exchange of records."
  },
  {
   "property": "C21",
   "status": "proved",
   "theorems": [
    "Verif.Props.C21_product",
    "Verif.Props.C21_sorted",
    "Verif.Props.C21_nonzero",
    "Verif.Props.C21_layout",
    "Verif.Props.C21_col_map"
   ],
   "note": "Values are a semiring (exact arithmetic). `C21_sorted` and `C21_nonzero` need no hypothesis at all. The order in which MPI delivers messages is taken as neighbourhood order."
  },
  {
   "property": "C22",
   "status": "partial",
   "theorems": [
    "Verif.Props.C22_transpose_same_iff",
    "Verif.Props.C22_matmul_same_iff",
    "Verif.Props.C22_same_collectives_partial",
    "Verif.Props.C22_refuted_isolated_rank"
   ],
   "note": "Refuted: a rank without neighbours skips MPI_Dist_graph_create_adjacent, which is collective. The theorems give the exact condition under which the traces agree."
  },
  {
   "property": "C23",
   "status": "proved",
   "theorems": [
    "Verif.Props.C23_rows",
    "Verif.Props.C23_flat",
    "Verif.Props.C23_regular",
    "Verif.Props.C23_regular_reject",
    "Verif.Props.C23_trivial"
   ],
   "note": ""
  },
  {
   "property": "C24",
   "status": "partial",
   "theorems": [
    "Verif.Props.C24_permutation_partial",
    "Verif.Props.C24_refuted_directed"
   ],
   "note": "Holds for every undirected graph; refuted for directed graphs (the returned array is then not a permutation). The claim covers every order that the unstable library sort may give to nodes of equal degree, and termination."
  },
  {
   "property": "C25",
   "status": "partial",
   "theorems": [
    "Verif.Props.C25_distribute_partial",
    "Verif.Props.C25_distribute_fixed",
    "Verif.Props.C25_refuted_degree"
   ],
   "note": "The fixed-degree overload is proved in full. The adjacency-list overload is proved under the hypothesis that no node has more links than the first local node the code measures; without it the code is wrong and a witness is given."
  },
  {
   "property": "C26",
   "status": "proved",
   "theorems": [
    "Verif.Props.C26_ghost_numbers",
    "Verif.Props.C26_numbers_bijective"
   ],
   "note": "Indices are naturals. The result of the neighbour discovery is any list C08 allows. The block_indirect_sort is any sort of the pairs in lexicographic order."
  },
  {
   "property": "C27",
   "status": "proved",
   "theorems": [
    "Verif.Props.C27_local_to_global",
    "Verif.Props.C27_size_mismatch",
    "Verif.Props.C27_local_to_local"
   ],
   "note": "local_to_local needs distinct globals (as stated); the identity shortcut would be wrong otherwise."
  },
  {
   "property": "C28",
   "status": "proved",
   "theorems": [
    "Verif.Props.C28_owned_indices"
   ],
   "note": "Marked lists are sorted (asserted by the code) and within range; repetitions allowed. Indices are naturals."
  },
  {
   "property": "C29",
   "status": "proved",
   "theorems": [
    "Verif.Props.C29_owned",
    "Verif.Props.C29_ghosts",
    "Verif.Props.C29_indices",
    "Verif.Props.C29_valid",
    "Verif.Props.C29_neighbours",
    "Verif.Props.C29_same_index",
    "Verif.Props.C29_one_owner",
    "Verif.Props.C29_throws"
   ],
   "note": "The exception is a separate function `throws`; only the listed ranks throw, so other ranks would wait in the following collective. The model of the remaining steps is for the case that owner changes are allowed or that no rank throws. Debug assertions are not modelled."
  },
  {
   "property": "C30",
   "status": "proved",
   "theorems": [
    "Verif.Props.C30_owned_numbers",
    "Verif.Props.C30_ghost_numbers"
   ],
   "note": "Numbers are naturals (no 32-bit overflow of local sizes)."
  },
  {
   "property": "C31",
   "status": "proved",
   "theorems": [
    "Verif.Props.C31_shared_indices",
    "Verif.Props.C31_index_to_dest_ranks"
   ],
   "note": "A record of two 64-bit integers is modelled as one pair."
  },
  {
   "property": "C32",
   "status": "proved",
   "theorems": [
    "Verif.Props.C32_sort_unique",
    "Verif.Props.C32_entities_to_index",
    "Verif.Props.C32_create",
    "Verif.Props.C32_find"
   ],
   "note": "Values come from a linear order, so NaN among floating values is outside the theorem. The MPI path that brings entity vertices to the rank is not part of the claim."
  },
  {
   "property": "C33",
   "status": "proved",
   "theorems": [
    "Verif.Props.C33_backward",
    "Verif.Props.C33_round_trip"
   ],
   "note": "The shared pointers to the two topologies are not modelled; only the entity counts of the sub-topology enter."
  },
  {
   "property": "C34",
   "status": "proved",
   "theorems": [
    "Verif.Props.C34_cross",
    "Verif.Props.C34_det",
    "Verif.Props.C34_inv",
    "Verif.Props.C34_dot",
    "Verif.Props.C34_pinv"
   ],
   "note": "Exact arithmetic: the rounding bound of Kahan's method is not covered."
  },
  {
   "property": "C35",
   "status": "partial",
   "theorems": [
    "Verif.Props.C35_facets_partial",
    "Verif.Props.C35_edges",
    "Verif.Props.C35_agree_partial",
    "Verif.Props.C35_refuted_large_numbers"
   ],
   "note": "Missing: triangles with global vertex numbers of 2^31 or more. There the claim is false: `g_pre` and `g_post` are `const int`, and `C35_refuted_large_numbers` gives two tetrahedra that orient a shared face differently. Quadrilaterals and edges are covered for all numbers."
  },
  {
   "property": "C36",
   "status": "proved",
   "theorems": [
    "Verif.Props.C36_row",
    "Verif.Props.C36_same_everywhere",
    "Verif.Props.C36_key"
   ],
   "note": "Vertex numbers are unbounded integers."
  },
  {
   "property": "C37",
   "status": "proved",
   "theorems": [
    "Verif.Props.C37_threads",
    "Verif.Props.C37_numbering",
    "Verif.Props.C37_order_irrelevant",
    "Verif.Props.C37_single_thread_order",
    "Verif.Props.C37_ghost_status",
    "Verif.Props.C37_connectivity"
   ],
   "note": "`boost::sort::sample_sort` is trusted to return a permutation sorted by the key. Data-race freedom is by disjoint rows; the memory model is not modelled. Conforming meshes only: entities with the same vertices list them as the same face. The renumbering by `get_local_indexing` enters `C37_connectivity` as an arbitrary bijection."
  },
  {
   "property": "C38",
   "status": "proved",
   "theorems": [
    "Verif.Props.C38_distribution",
    "Verif.Props.C38_bijection",
    "Verif.Props.C38_order"
   ],
   "note": "Neighbourhood collectives, MPI_Exscan and std::sort are trusted. Index arithmetic is unbounded except in C38_order (vertices below 2^63)."
  },
  {
   "property": "C39",
   "status": "proved",
   "theorems": [
    "Verif.Props.C39_transpose",
    "Verif.Props.C39_from_map",
    "Verif.Props.C39_from_map_missing",
    "Verif.Props.C39_create"
   ],
   "note": "Basix' reference edge tables of triangle and quadrilateral are trusted constants. That create_entities leaves the state `EntitiesOk` requires is C37 and C38; create_entities itself is not composed with this theorem."
  },
  {
   "property": "C40",
   "status": "partial",
   "theorems": [
    "Verif.Props.C40_sharing_partial",
    "Verif.Props.C40_refuted_large_numbers",
    "Verif.Props.C40_refuted_unsorted"
   ],
   "note": "Missing: vertex numbers that agree in their low 32 bits, and lists that do not ascend. In both cases the claim is false; the two refutations give one process with vertices 0 and 2^32 (numbers are sent as `int`), and two processes with an unsorted list (the documentation of create_topology does not ask for sorted boundary vertices). Numbers below 2^32 are all covered."
  },
  {
   "property": "C41",
   "status": "partial",
   "theorems": [
    "Verif.Props.C41_create_topology_partial",
    "Verif.Props.C41_refuted_large_numbers"
   ],
   "note": "Missing: boundary vertices with equal low 32 bits, and boundary vertices that do not ascend (see C40). The refutation gives two processes without common vertices where one takes the vertex of the other for its own. The neighbourhood discovery of compute_ghost_indices is trusted to return the in-edges (C08)."
  },
  {
   "property": "C42",
   "status": "proved",
   "theorems": [
    "Verif.Props.C42_dofmap",
    "Verif.Props.C42_attached_unique",
    "Verif.Props.C42_rcm_admissible"
   ],
   "note": "Connectivity needed by the layouts is assumed to exist (the code checks it only for the first cell type that needs it). Layouts without any dof, where reorder_owned divides by zero, are excluded from the model's scope. Neighbourhood collectives and std::sort are trusted; indices are unbounded."
  },
  {
   "property": "C43",
   "status": "partial",
   "theorems": [
    "Verif.Props.C43_real_dofmap_partial",
    "Verif.Props.C43_refuted_no_cells"
   ],
   "note": "Missing: meshes without any cell, where the claim is false (refutation: rank 0 becomes the owner of its own ghost and no rank owns the dof)."
  },
  {
   "property": "C44",
   "status": "proved",
   "theorems": [
    "Verif.Props.C44_dual_graph",
    "Verif.Props.C44_symmetric",
    "Verif.Props.C44_no_duplicates",
    "Verif.Props.C44_refuted_limit"
   ],
   "note": "With a bound on the cells per facet, the bound must hold over all processes; the refutation shows a facet in three cells with bound two whose link between processes is missing (graphbuild.h documents it). The orders found by the radix sorts are inputs required to be sorted permutations (C03), NBX is trusted to return the in-edges (C07), and indices are unbounded."
  },
  {
   "property": "C45",
   "status": "proved",
   "theorems": [
    "Verif.Props.C45_matrix",
    "Verif.Props.C45_matrix_diagonal",
    "Verif.Props.C45_diagonal_error",
    "Verif.Props.C45_create",
    "Verif.Props.C45_rejects"
   ],
   "note": "Element matrices (kernels and dof transformations) are arbitrary inputs; entries are in an arbitrary commutative ring, so rounding is not modelled. Boundary condition dofs are sorted with the owned ones first, as DirichletBC keeps them, and consistent across processes (the caller's duty). `C45_diagonal_error` states exactly when the diagonal step raises an error: some owned constrained dof is not coupled with itself by the form on any process. Mixed topology with facet integrals is rejected as in the code."
  },
  {
   "property": "C46",
   "status": "proved",
   "theorems": [
    "Verif.Props.C46_vector",
    "Verif.Props.C46_lifting",
    "Verif.Props.C46_set",
    "Verif.Props.C46_refuted_mixed_facets"
   ],
   "note": "For facet or vertex integrals on meshes with several cell types the claim is false: `assemble_vector` takes the integrals of kernel index 0 for every cell type and adds the facet once per type, without an error (`C46_refuted_mixed_facets`; `assemble_matrix` rejects such forms). Element tensors are arbitrary inputs over a commutative ring; rounding is not modelled. Agreement of conditions across processes is the caller's duty."
  },
  {
   "property": "C47",
   "status": "proved",
   "theorems": [
    "Verif.Props.C47_system",
    "Verif.Props.C47_symmetric"
   ],
   "note": "One block with equal test and trial space, diagonal value 1. Errors when setting the diagonal are those of C45 (hypothesis `hne`, characterised by `C45_diagonal_error`). Rounding is not modelled."
  },
  {
   "property": "C48",
   "status": "partial",
   "theorems": [
    "Verif.Props.C48_local",
    "Verif.Props.C48_rejects",
    "Verif.Props.C48_located",
    "Verif.Props.C48_in_map",
    "Verif.Props.C48_symmetric",
    "Verif.Props.C48_owner",
    "Verif.Props.C48_consistent_partial",
    "Verif.Props.C48_consistent_pair_partial",
    "Verif.Props.C48_condition_partial",
    "Verif.Props.C48_refuted_second_neighbour"
   ],
   "note": "The full claim is false: the exchange reaches only processes in an owner-ghost relation and the owner does not pass on what it receives, so a dof found by one ghost process stays unknown to another one (`C48_refuted_second_neighbour`). Proved: exactly which dofs each process returns, that the owner always has them, and consistency where the owner finds the dof itself or only one other process has it. The version for two spaces is C81. The neighbourhood allgather is trusted; `Ok.agree` (cells agree about the dofs of a common entity) is C42."
  },
  {
   "property": "C49",
   "status": "partial",
   "theorems": [
    "Verif.Props.C49_points_partial",
    "Verif.Props.C49_trees",
    "Verif.Props.C49_mesh",
    "Verif.Props.C49_global",
    "Verif.Props.C49_refuted_single_leaf",
    "Verif.Props.C49_refuted_point_tree"
   ],
   "note": "The full claim is false in two cases. In a tree with a single leaf whose entity number is not 0, a point outside of the box makes the code use the entity number as a node number and read outside of the arrays (`C49_refuted_single_leaf`). Trees of points (create_midpoint_tree) take the lexicographic minimum and maximum as corners of inner boxes, which do not contain the points, and lose points (`C49_refuted_point_tree`). Everything else is proved: trees of boxes with any other number of leaves, and all pairs of trees of boxes. Arithmetic: any operations that are monotone, so rounding is covered, NaN is not. Boxes are those of all nodes of an entity, which need not contain curved entities (`C97_refuted_curved` shows such a cell)."
  },
  {
   "property": "C50",
   "status": "partial",
   "theorems": [
    "Verif.Props.C50_closest",
    "Verif.Props.C50_vertices_partial",
    "Verif.Props.C50_empty",
    "Verif.Props.C50_refuted_padded_vertices",
    "Verif.Props.C50_refuted_point_search"
   ],
   "note": "For trees of vertices (dimension 0) with padding the claim is false: the code takes the distance to the lower corner of the padded box (`C50_refuted_padded_vertices`). For all other dimensions, and vertices without padding, it is proved, although the search in the tree of midpoints can miss the closest midpoint (`C50_refuted_point_search`): the proof needs only that its result is the distance to some midpoint. The GJK distance is an input, attained at a point of the entity's box; exact arithmetic over any ordered ring."
  },
  {
   "property": "C51",
   "status": "proved",
   "theorems": [
    "Verif.Props.C51_owner_inside",
    "Verif.Props.C51_owner_outside",
    "Verif.Props.C51_owner_none",
    "Verif.Props.C51_dest",
    "Verif.Props.C51_scatter"
   ],
   "note": "The collisions with the global tree and with the local tree are inputs (C49 is about them), so are the GJK distances; `Good` says that collisions are different ranks of the communicator. Point coordinates are sent as one item instead of three numbers. Neighbourhood exchanges and the computation of the source ranks are trusted (C07)."
  },
  {
   "property": "C52",
   "status": "proved",
   "theorems": [
    "Verif.Props.C52_triangles_tile",
    "Verif.Props.C52_triangles_points",
    "Verif.Props.C52_tetrahedra_tile",
    "Verif.Props.C52_tetrahedra_points",
    "Verif.Props.C52_unmarked",
    "Verif.Props.C52_conforming_2d",
    "Verif.Props.C52_conforming_3d",
    "Verif.Props.C52_parts_used",
    "Verif.Props.C52_order_needed"
   ],
   "note": "Longest edges must come from one order of all edges; without it cells vanish (`C52_order_needed`). Cells are given by their vertices, midpoints by pairs of vertices; index arrays, numbering of new vertices and propagation of marks are separate properties. Coordinates of new vertices are exact midpoints."
  },
  {
   "property": "C53",
   "status": "proved",
   "theorems": [
    "Verif.Props.C53_marks",
    "Verif.Props.C53_consistent",
    "Verif.Props.C53_edge_length",
    "Verif.Props.C53_longest",
    "Verif.Props.C53_longest_2d"
   ],
   "note": "Edges must be given on all ranks or on none, as the API wants it. Edge lengths are an input function with values in any linear order, equal on all ranks for the same edge (`C53_longest` asks for lengths by global vertices): with floating point this needs that the norm of a difference does not depend on the order of its end points, which holds in IEEE arithmetic. `C53_edge_length` shows that the code finds the positions of the end points. Neighbourhood exchanges are trusted; the neighbourhood itself is C31."
  },
  {
   "property": "C54",
   "status": "proved",
   "theorems": [
    "Verif.Props.C54_numbering",
    "Verif.Props.C54_positions",
    "Verif.Props.C54_blocks"
   ],
   "note": "Marks are equal on all ranks (C53). Points are items of any type with a symmetric mean of two of them, so rounding is covered. Geometry of degree 1: the closure of an edge has two dofs (`Straight`); for curved cells the code takes the mean of all dofs of the edge, which is outside of the claim. Exchanges and scans of MPI are trusted."
  },
  {
   "property": "C55",
   "status": "proved",
   "theorems": [
    "Verif.Props.C55_refinement",
    "Verif.Props.C55_parents",
    "Verif.Props.C55_positions"
   ],
   "note": "The mesh on the ranks is any data with `MeshOk`: connectivities of one mesh, edges with different pairs of vertices, lengths equal on all ranks, no cell twice. Geometry of degree 1. What create_mesh makes of the arrays (partition, ghosts, reordering) is not part of this; see C38, C41, C42. MPI exchanges and scans are trusted."
  },
  {
   "property": "C56",
   "status": "proved",
   "theorems": [
    "Verif.Props.C56_cells",
    "Verif.Props.C56_facets",
    "Verif.Props.C56_rejects"
   ],
   "note": "Tags are on a mesh without ghosts, as the code demands, hence one process at a time is enough (`OldFacets`, `SameCells`). The order of the new cells (`original_cell_index`) is a permutation of the cells of the refinement, and new facets are numbered in any way that identifies facets with equal vertex sets: what the topology of the new mesh gives (C14, C38)."
  },
  {
   "property": "C57",
   "status": "proved",
   "theorems": [
    "Verif.Props.C57_intervals",
    "Verif.Props.C57_positions"
   ],
   "note": "Cells must be given on all processes or on none. Geometry of degree 1; exchanges and scans of MPI are trusted. Building the new mesh from the arrays is outside of this property."
  },
  {
   "property": "C58",
   "status": "partial",
   "theorems": [
    "Verif.Props.C58_uniform_partial",
    "Verif.Props.C58_rejects",
    "Verif.Props.C58_refuted_pyramid_hole",
    "Verif.Props.C58_refuted_pyramid_fits"
   ],
   "note": "Proved for all meshes of triangles, quadrilaterals, tetrahedra, prisms and hexahedra, mixed in any way. For pyramids the statement is false: the 5 pyramids and 4 tetrahedra leave a hole (the pyramid that hangs from the square below the top), shown by a point and by a side that belongs to one cell only. Geometry of degree 1; what create_mesh does with the arrays is not part of this."
  },
  {
   "property": "C59",
   "status": "proved",
   "theorems": [
    "Verif.Props.C59_cells",
    "Verif.Props.C59_exterior",
    "Verif.Props.C59_interior",
    "Verif.Props.C59_points",
    "Verif.Props.C59_missing"
   ],
   "note": "The connectivities and interprocess entities on the processes describe one mesh (`Ok`): this is what C16, C38 and C39 are about. For interior facets no facet may have more than two cells."
  },
  {
   "property": "C60",
   "status": "partial",
   "theorems": [
    "Verif.Props.C60_scalar_partial",
    "Verif.Props.C60_refuted_default_twice",
    "Verif.Props.C60_refuted_gap"
   ],
   "note": "The full statement is false in two cases. Two default integrals (id -1) of a facet, vertex or ridge kind: the vector of default entities is not cleared, the second integral is evaluated twice (`C60_refuted_default_twice`). A list of subdomains without entry for an id of the form: assembling fails with a missing kernel (`C60_refuted_gap`). Proved for all other forms with tags, or without subdomain data when all ids are default. The kernel gives the same value on every process and for every row that stands for the entity (for ds there is one such cell; for dS it must not depend on which side is first). Exact arithmetic; coefficients, constants and geometry are part of the kernel; one cell type."
  },
  {
   "property": "C61",
   "status": "proved",
   "theorems": [
    "Verif.Props.C61_interval",
    "Verif.Props.C61_rectangle",
    "Verif.Props.C61_box",
    "Verif.Props.C61_rejects",
    "Verif.Props.C61_refuted_prism_subcomm",
    "Verif.Props.C61_refuted_flat"
   ],
   "note": "Exact arithmetic in any ordered field; a width must not be below the machine epsilon. This is about the arrays given to create_mesh (what it does with them is C38, C41, C42). The C++ overload of create_box with a second communicator is covered for tetrahedra and hexahedra; for prisms it loses cells (`C61_refuted_prism_subcomm`). Triangles of a too flat rectangle are rejected by process 0 only (`C61_refuted_flat`)."
  },
  {
   "property": "C62",
   "status": "proved",
   "theorems": [
    "Verif.Props.C62_submesh",
    "Verif.Props.C62_agree",
    "Verif.Props.C62_refused",
    "Verif.Props.C62_unsupported"
   ],
   "note": "One cell type. The mesh is any data with `SubmeshInput`: valid index maps, entities and nodes in range, cells of an entity have the same nodes on it. The permutation of closure dofs is a function of Basix: it is a parameter that permutes; that the permuted nodes of an entity agree between cells is an hypothesis of `C62_agree` (C35 is about the numbers it uses). An error on one process counts as an error of the call. Exchanges of MPI are trusted."
  },
  {
   "property": "C63",
   "status": "partial",
   "theorems": [
    "Verif.Props.C63_transfer_partial",
    "Verif.Props.C63_refused",
    "Verif.Props.C63_refuted_max"
   ],
   "note": "The claim is false for one value: the largest value of the type marks untagged entities, tags with it are lost (`C63_refuted_max`). Proved for all other values. Hypotheses (`SubTagsOk`): connectivities are those of faces of a reference cell, entities are known by their vertices, the maps are those of C62. One process, there is no communication."
  },
  {
   "property": "C64",
   "status": "proved",
   "theorems": [
    "Verif.Props.C64_read",
    "Verif.Props.C64_write",
    "Verif.Props.C64_perm",
    "Verif.Props.C64_refuted_large",
    "Verif.Props.C64_refuted_large_hexahedron"
   ],
   "note": "For cells of at most 65536 nodes: entries are 16 bit numbers, above (hexahedra of degree 40 and more) an array is returned that is no permutation (`C64_refuted_large`). Trusted: the orders of Basix and VTK as written in `Spec/CellNodes` (from their documentation), exact roots in cell_degree (floating point in the code)."
  },
  {
   "property": "C65",
   "status": "proved",
   "theorems": [
    "Verif.Props.C65_read",
    "Verif.Props.C65_perm",
    "Verif.Props.C65_refused"
   ],
   "note": "Intervals of at most 65536 nodes. Trusted: the orders of Basix and Gmsh as written in `Spec/CellNodes`."
  },
  {
   "property": "C66",
   "status": "partial",
   "theorems": [
    "Verif.Props.C66_write_partial",
    "Verif.Props.C66_read",
    "Verif.Props.C66_roundtrip_partial",
    "Verif.Props.C66_refuted_ghosts",
    "Verif.Props.C66_refuted_large",
    "Verif.Props.C66_refuted_prism",
    "Verif.Props.C66_refuted_pyramid"
   ],
   "note": "The claim is false: with several cell types and ghost cells the offsets are wrong and the file cannot be read (`C66_refuted_ghosts`); sizes are added up in 32 bit integers, so 2^28 linear hexahedra cannot be written (`C66_refuted_large`); prisms of degree two are written but not read (`C66_refuted_prism`), pyramids of degree two are read as linear ones (`C66_refuted_pyramid`). Proved where only the last cell type has ghost cells, the connectivity has less than 2^31 entries, degrees are at most 255, and prisms and pyramids are linear. The mesh is what read_mesh passes to create_mesh (C25, C38 and C41 are about what follows). HDF5 and MPI_Allgatherv are trusted."
  },
  {
   "property": "C67",
   "status": "proved",
   "theorems": [
    "Verif.Props.C67_destinations",
    "Verif.Props.C67_scotch",
    "Verif.Props.C67_cells",
    "Verif.Props.C67_refuted_directed"
   ],
   "note": "The assignment computed by the graph library is an arbitrary parameter; for SCOTCH, the halo exchange of the assignment is the library's. `compute_destination_ranks` alone is wrong for graphs with links in one direction only (`C67_refuted_directed`, the size of `recv_sizes`), which the dual graph of a mesh never has (C44)."
  },
  {
   "property": "C68",
   "status": "proved",
   "theorems": [
    "Verif.Props.C68_view",
    "Verif.Props.C68_invalid",
    "Verif.Props.C68_partition",
    "Verif.Props.C68_refuted_nested"
   ],
   "note": "Stated for one component at a time, as the Python interface does it. C++'s `sub({i, j})` with several components at once takes each component from the top-level sub-elements and gives a wrong view (`C68_refuted_nested`). Element data (entity dofs, block sizes) is any data of the right shape."
  },
  {
   "property": "C69",
   "status": "partial",
   "theorems": [
    "Verif.Props.C69_unblocked",
    "Verif.Props.C69_blocked_partial",
    "Verif.Props.C69_function",
    "Verif.Props.C69_refuted_permuted"
   ],
   "note": "The claim is false for a vector-valued (blocked) sub-space of a mixed space whose element needs dof permutations, such as Lagrange of degree 3: its dofmap is built anew without `permute_inv`, and on a reflected edge the dofs of two cells do not fit (`C69_refuted_permuted`). Proved for all other sub-spaces: unblocked ones with any element (`C69_unblocked`), blocked ones with elements without permutations (`C69_blocked_partial`). Hypotheses: the space is one that `create_dofmap` builds on a consistent mesh (`SpaceOk`, as C42), each process has a cell at every entity it has dofs on (`Touched`), and the values of the basix element permute the dofs of each entity among themselves. One cell type. MPI exchanges are trusted."
  },
  {
   "property": "C70",
   "status": "proved",
   "theorems": [
    "Verif.Props.C70_geometry",
    "Verif.Props.C70_refused"
   ],
   "note": "Hypotheses (`GeometryOk`): a consistent topology (`Dofmap.Ok`, as C42; C38 and C41 are about it), each entity is in a cell of the process, and the nodes given for the cells fit the topology (`NodesFit`): nodes are the same exactly if they are the same node of the same entity, where cells see the nodes of their entities through `permute_inv` of the element. For linear cells this is C41's statement on vertices. `permute_inv` is any function that permutes entries by position. Results of NBX are in any order. Dimension at most 3 (the precondition of the code)."
  },
  {
   "property": "C71",
   "status": "partial",
   "theorems": [
    "Verif.Props.C71_transpose_partial",
    "Verif.Props.C71_assemble",
    "Verif.Props.C71_refuted_empty"
   ],
   "note": "The claim is false for an empty dofmap (a process without cells): the largest dof is read at the end of an empty range (`C71_refuted_empty`). Proved for all arrays with an entry; a dofmap with ghost cells only gives empty rows. Positions are natural numbers (int32 in the code)."
  },
  {
   "property": "C72",
   "status": "proved",
   "theorems": [
    "Verif.Props.C72_located",
    "Verif.Props.C72_boundary",
    "Verif.Props.C72_complete",
    "Verif.Props.C72_facets",
    "Verif.Props.C72_dofs",
    "Verif.Props.C72_refused"
   ],
   "note": "Hypotheses (`PointsOk`, `Ok`): the stored connectivities describe one mesh (C38, C39, C59), each vertex of a process is in one of its cells, and the node at the place of a vertex in any cell is the point of the vertex (C70). For `C72_dofs` also that processes agree on the dofs of an entity (C42). Markers are applied to each point by itself. That ghosts of a dof are found too is C48 (partial)."
  },
  {
   "property": "C73",
   "status": "partial",
   "theorems": [
    "Verif.Props.C73_distributed_partial",
    "Verif.Props.C73_tags_partial",
    "Verif.Props.C73_refuted_unused"
   ],
   "note": "The claim is false if the input of create_mesh has nodes that belong to no cell: post offices are chosen with the number of nodes of the geometry, which is then smaller than the node numbers, and `index_owner` gives a rank that does not exist (`C73_refuted_unused`, on one process). Proved for inputs without such nodes (`Ok`). Hypotheses: vertices of a process and their nodes are in correspondence (C41, C70), each process has a node once (C70), entities are known by their vertices (C38). Nothing is claimed on the order of the result. Exchanges of MPI are trusted."
  },
  {
   "property": "C74",
   "status": "partial",
   "theorems": [
    "Verif.Props.C74_mesh_partial",
    "Verif.Props.C74_tags_partial",
    "Verif.Props.C74_refuted_cubic",
    "Verif.Props.C74_refuted_quad8",
    "Verif.Props.C74_refuted_flat",
    "Verif.Props.C74_refuted_prism",
    "Verif.Props.C74_refuted_xml"
   ],
   "note": "The claim is false for cubic triangles and tetrahedra, which are written under names that are not known when reading (`C74_refuted_cubic`), and for tags on facets of prisms and pyramids: the test that should refuse them compares the dimension of the cell with 2, never holds, and tables are read outside of their range (`C74_refuted_prism`). Quadrilaterals with eight nodes, for which the Python layer has a case, cannot be read (`C74_refuted_quad8`), nor can flat HDF5 arrays (`C74_refuted_flat`); the XML encoding loses digits (`C74_refuted_xml`). Proved for the fourteen combinations of type and number of nodes in `supported`, with at least one cell or tag (an empty data set fails an assertion). Hypotheses: dofs of an entity start with those of its vertices (Basix), vertex nodes of an entity do not depend on the cell and identify it (C38, C70), and the mesh that reads satisfies what C73 needs; its input nodes are those of the file. A mesh on the line is read as one in the plane (documented). HDF5 itself is trusted; coordinates are copied, not rounded."
  },
  {
   "property": "C75",
   "status": "proved",
   "theorems": [
    "Verif.Props.C75_pack",
    "Verif.Props.C75_coefficients",
    "Verif.Props.C75_arguments",
    "Verif.Props.C75_expression",
    "Verif.Props.C75_constants"
   ],
   "note": "Hypotheses (`FormOk`, `DomainOk`, `EntsOk`): the integrals of each type are numbered without gaps (C60), there is exactly one entity map between the two meshes, with a number for each cell of the smaller one, each once; cell-to-entity tables have the rows that are needed; dofs are in the range of the vector. If the mesh of the form is the smaller one and has lower dimension, nothing is refused and facet numbers are used as cell numbers (`C75_refuted_dimension`); this is outside of the property. Coefficients on meshes with several cell types are refused by the code. That kernels read rows in this layout is the convention of UFCx (trusted). Transformations of elements are arbitrary functions that keep the length."
  },
  {
   "property": "C76",
   "status": "partial",
   "theorems": [
    "Verif.Props.C76_data_partial",
    "Verif.Props.C76_callable_partial",
    "Verif.Props.C76_callable_refuses",
    "Verif.Props.C76_points",
    "Verif.Props.C76_expression_partial",
    "Verif.Props.C76_expression_refuses",
    "Verif.Props.C76_same",
    "Verif.Props.C76_same_map",
    "Verif.Props.C76_other_map_partial",
    "Verif.Props.C76_shape_refused",
    "Verif.Props.C76_conforming",
    "Verif.Props.C76_refuted_blocked_piola",
    "Verif.Props.C76_refuted_symmetric"
   ],
   "note": "The claim is false for blocked elements whose map is not the identity (values cannot be interpolated, `C76_refuted_blocked_piola`) and for functions of symmetric matrix elements that are interpolated into an element with another map (`C76_refuted_symmetric`: entries are mixed up and one is zero). Also not proved: values for symmetric elements that are not point evaluations (refused by the code), functions between elements of which one is symmetric. Everything else is proved for all elements whose sizes fit together (`ElemOk`), with arbitrary dof transformations and maps at points; hypotheses on Basix: an element of point evaluations has the identity as interpolation matrix, the operator between two elements is the interpolation matrix times tabulated basis functions (`basixOp`), pulling back undoes pushing forward (`PullsBack`). On manifolds value sizes and reference value sizes differ; not modelled. Exact arithmetic. The dofmap of a cell has no repeated dof (`DofsOk`)."
  },
  {
   "property": "C77",
   "status": "proved",
   "theorems": [
    "Verif.Props.C77_eval",
    "Verif.Props.C77_interpolated",
    "Verif.Props.C77_eval_refuses"
   ],
   "note": "The basis functions at the points (pull back of points, tabulation, transformation, push forward) are given; their transformation is C79, and wrong for blocked elements that need one (`C79_refuted_eval`); that a point is in the cell is the caller's business. Arrays of different lengths are refused, except if the array of cells is empty: then nothing is checked and the array is returned as it was (`C77_refuted_no_cells`), in Python with undefined values; this is outside of the property. Exact arithmetic."
  },
  {
   "property": "C78",
   "status": "partial",
   "theorems": [
    "Verif.Props.C78_scatter",
    "Verif.Props.C78_interpolate_partial",
    "Verif.Props.C78_points",
    "Verif.Props.C78_refuted_value_size",
    "Verif.Props.C78_refuted_value_size_out"
   ],
   "note": "The claim that functions with another number of components are refused is false: sizes are never compared. A scalar function goes into the first component of a vector (`C78_refuted_value_size`), a vector function into a scalar element writes outside of the array of values (`C78_refuted_value_size_out`). Restrictions of elements are those of C76 (`C76_data_partial`). Proved otherwise: C51 gives the rank and cell of each point, C77 the values there, `C78_scatter` their way back, C76 the dofs. Candidates from bounding box trees (C49), distances, and basis functions at the points (pull back) are inputs; MPI neighbourhood exchange is trusted. Exact arithmetic."
  },
  {
   "property": "C79",
   "status": "partial",
   "theorems": [
    "Verif.Props.C79_left",
    "Verif.Props.C79_left_scalar",
    "Verif.Props.C79_right_blocked",
    "Verif.Props.C79_right_partial",
    "Verif.Props.C79_eval",
    "Verif.Props.C79_refuted_right_blocked",
    "Verif.Props.C79_refuted_right_mixed_blocked",
    "Verif.Props.C79_refuted_right_mixed",
    "Verif.Props.C79_refuted_eval"
   ],
   "note": "From the left the claim is proved for all elements. From the right it is false for blocked elements whose matrix is not symmetric, as for faces that are rotated (`C79_refuted_right_blocked`: the left function with the same type is used on the rows, which is the transpose; `C79_right_blocked` says exactly what is done), for mixed elements with a blocked sub-element (`C79_refuted_right_mixed_blocked`: the length of rows is computed from what is left of the array), and for mixed elements in general whatever Basix does (`C79_refuted_right_mixed`: for rows of different length it gets the same arguments). Proved for Basix elements (with what is trusted of Basix, `BasixRight`) and blocked elements with symmetric matrices. Evaluation and others are wrong for blocked elements that need transformations (`C79_refuted_eval`: the function for the whole element is applied to values of the scalar element and reaches beyond them), right for all others (`C79_eval`). Exact arithmetic."
  },
  {
   "property": "C80",
   "status": "partial",
   "theorems": [
    "Verif.Props.C80_matrix_partial",
    "Verif.Props.C80_same_as_interpolate",
    "Verif.Props.C80_gradient",
    "Verif.Props.C80_curl",
    "Verif.Props.C80_refused",
    "Verif.Props.C80_refuted_symmetric",
    "Verif.Props.C80_refuted_blocks"
   ],
   "note": "The claim that there is an interpolation matrix between any two spaces is false: block sizes 2 and 3, and those above 3, are refused (`C80_refuted_blocks`), and for a symmetric matrix space as target values are written outside of the array of the cell (`C80_refuted_symmetric`). Otherwise proved for elements that are not symmetric and have the same number of components (not compared by the code), with the hypotheses of C76 on elements and linear maps and transformations (`Linear`). For gradient and curl it is a hypothesis that the derivative, pulled back, is the derivative on the reference cell (chain rule), for the gradient without a transformation of V0 (the code applies none, so the matrix is wrong for scalar elements that need one, such as serendipity elements of higher degree), and that derivatives of V0 are in V1 (`Conform`). The transformation of basis functions of V0 is in the given values (C79 says when it is right). Tabulated values are exact. The cell loops are those over owned cells; that each owned dof is in an owned cell is not proved."
  },
  {
   "property": "C81",
   "status": "partial",
   "theorems": [
    "Verif.Props.C81_local",
    "Verif.Props.C81_pairs",
    "Verif.Props.C81_owner",
    "Verif.Props.C81_consistent_partial",
    "Verif.Props.C81_same_place",
    "Verif.Props.C81_set",
    "Verif.Props.C81_values",
    "Verif.Props.C81_coordinates",
    "Verif.Props.C81_geometrical",
    "Verif.Props.C81_geometrical_pairs",
    "Verif.Props.C81_refused",
    "Verif.Props.C81_refuted_second_neighbour"
   ],
   "note": "That all processes agree is false for the reason of C48 (`C81_refuted_second_neighbour`); it holds if what is found is found by the owner too (`C81_consistent_partial`), and the owner always gets what any process finds (`C81_owner`). All else is proved, under the hypothesis that the two spaces correspond (`Match`: dofs at the same place are one-to-one, with equal global numbers on all processes, and a process has both or none; C69 is about collapsed spaces) and that the closure of an entity looks the same from its cells. Geometrically: markers are functions of a point, all cells of a dof agree on its point (`DofPoint`), meshes have one cell type, exact arithmetic; no exchange is needed or made, so agreement of processes is agreement on points."
  },
  {
   "property": "C82",
   "status": "partial",
   "theorems": [
    "Verif.Props.C82_solve",
    "Verif.Props.C82_residual",
    "Verif.Props.C82_incremental",
    "Verif.Props.C82_linear",
    "Verif.Props.C82_refused",
    "Verif.Props.C82_python",
    "Verif.Props.C82_refuted_relative",
    "Verif.Props.C82_refuted_exact_start"
   ],
   "note": "Which iterate is returned, counts, exceptions and the absolute test are proved for all solvers. The relative test is false as documented: `residual0()` is the norm of the first increment also for the criterion 'residual', so residuals are compared with rtol times an increment (`C82_refuted_relative`: convergence is reported although the residual fell by a factor of 4 only with rtol = 1/100; multiplying the equation by a constant changes the number of steps). `C82_residual` says what holds. Without absolute tolerance a start at the exact solution ends in an exception (`C82_refuted_exact_start`). PETSc is trusted (vectors, matrices and linear solver are given functions), exact arithmetic, division by zero is never below a tolerance."
  },
  {
   "property": "C83",
   "status": "partial",
   "theorems": [
    "Verif.Props.C83_regions",
    "Verif.Props.C83_push",
    "Verif.Props.C83_newton",
    "Verif.Props.C83_not_converged",
    "Verif.Props.C83_affine",
    "Verif.Props.C83_pull_push",
    "Verif.Props.C83_push_pull",
    "Verif.Props.C83_parallelogram",
    "Verif.Props.C83_refused",
    "Verif.Props.C83_determinant",
    "Verif.Props.C83_refuted_negative_maxit"
   ],
   "note": "Proved for Jacobians of full rank at the points visited (otherwise the code divides by zero), in exact arithmetic, with any function for the square root. False for a negative maxit: there is no exception and the result is the origin (`C83_refuted_negative_maxit`). Convergence of Newton's method is proved for cells with an affine map only. Tabulation by Basix is a given function. A kernel is assumed to read its arguments before it writes (its parts of the working array are disjoint)."
  },
  {
   "property": "C84",
   "status": "partial",
   "theorems": [
    "Verif.Props.C84_layout",
    "Verif.Props.C84_local_vectors",
    "Verif.Props.C84_assign",
    "Verif.Props.C84_assemble",
    "Verif.Props.C84_lifting",
    "Verif.Props.C84_set_bc",
    "Verif.Props.C84_numbers",
    "Verif.Props.C84_element",
    "Verif.Props.C84_matrix",
    "Verif.Props.C84_missing_diagonal",
    "Verif.Props.C84_empty",
    "Verif.Props.C84_diagonal",
    "Verif.Props.C84_diagonal_partial",
    "Verif.Props.C84_refuted_shared_space"
   ],
   "note": "False for the diagonal if two fields have the same space object: `insert_diagonal` is called for every block whose form has the same test and trial space, so entries beside the diagonal are set as well and the matrix becomes singular (`C84_refuted_shared_space`); `C84_diagonal` says what is set, `C84_diagonal_partial` what holds for different spaces. All else is proved. PETSc is trusted: order of entries of ghosted vectors, local sub-matrices, sums of values from different processes. What forms, lifting and conditions do with an array of one field are given functions that keep its length (see C13 to C16, C70). Nests are modelled in `assign` only."
  },
  {
   "property": "C85",
   "status": "partial",
   "theorems": [
    "Verif.Props.C85_contains",
    "Verif.Props.C85_dofs",
    "Verif.Props.C85_rows",
    "Verif.Props.C85_columns",
    "Verif.Props.C85_list",
    "Verif.Props.C85_refused",
    "Verif.Props.C85_cpp",
    "Verif.Props.C85_ragged",
    "Verif.Props.C85_bcs",
    "Verif.Props.C85_block",
    "Verif.Props.C85_one_block_partial",
    "Verif.Props.C85_refuted_shared_space",
    "Verif.Props.C85_refuted_generator"
   ],
   "note": "False for conditions given by a generator, although any `Iterable` is asked for: the first block consumes it and all others get no conditions (`C85_refuted_generator`); proved for lists. A condition goes to one block only if no two blocks have parts of the same space (`C85_one_block_partial`), else to both (`C85_refuted_shared_space`). The random numbers of spaces are assumed to be different; sub-spaces are extracted one index at a time, as in Python (for several at once see C68). NumPy's conversion of nested lists is modelled by its result."
  },
  {
   "property": "C86",
   "status": "partial",
   "theorems": [
    "Verif.Props.C86_refused",
    "Verif.Props.C86_layout",
    "Verif.Props.C86_entries",
    "Verif.Props.C86_rows",
    "Verif.Props.C86_matrix",
    "Verif.Props.C86_solve_partial",
    "Verif.Props.C86_solve_refused",
    "Verif.Props.C86_grid",
    "Verif.Props.C86_factors",
    "Verif.Props.C86_set_A",
    "Verif.Props.C86_refuted_documented_option",
    "Verif.Props.C86_refuted_set_A_throws"
   ],
   "note": "SuperLU_DIST itself is trusted: that it solves is a hypothesis of `C86_solve_partial`, and what it does with factor arrays is taken from the comments in the code. The documented way to solve with further right-hand sides is refused (`C86_refuted_documented_option`: the option is `Fact`, not `Factor`), and `set_A` with an unknown last argument throws after the matrix has been replaced (`C86_refuted_set_A_throws`). The square root of the number of processes is exact. All else is proved."
  },
  {
   "property": "C87",
   "status": "partial",
   "theorems": [
    "Verif.Props.C87_vtk_partial",
    "Verif.Props.C87_vtk_constants_partial",
    "Verif.Props.C87_vtk_accepts",
    "Verif.Props.C87_xdmf_nodes_partial",
    "Verif.Props.C87_xdmf_cells_partial",
    "Verif.Props.C87_xdmf_accepts",
    "Verif.Props.C87_vtx_partial",
    "Verif.Props.C87_vtx_accepts",
    "Verif.Props.C87_refuted_vtk_unpadded",
    "Verif.Props.C87_refuted_vtk_dofmaps",
    "Verif.Props.C87_refuted_vtk_tensor",
    "Verif.Props.C87_refuted_xdmf_tensor",
    "Verif.Props.C87_refuted_xdmf_sub",
    "Verif.Props.C87_refuted_vtx_first",
    "Verif.Props.C87_refuted_vtx_dofmaps",
    "Verif.Props.C87_refuted_vtx_cells"
   ],
   "note": "False in general, with counterexamples: VTK writes vectors of two components on three-dimensional meshes without padding (`C87_refuted_vtk_unpadded`) and throws away values carried over from another dofmap on other meshes (`C87_refuted_vtk_dofmaps`); all writers put matrices with less than three columns into wrong entries (`C87_refuted_vtk_tensor`, `C87_refuted_xdmf_tensor`); XDMF does not refuse vector sub-functions and reads out of range (`C87_refuted_xdmf_sub`); VTX makes the points from the first function even if it is constant (`C87_refuted_vtx_first`), does not check dofmaps in release builds (`C87_refuted_vtx_dofmaps`) and writes constants in the order of dofs (`C87_refuted_vtx_cells`). Proved where none of this applies, for elements without symmetry. The order of nodes is a given permutation (C64), positions of nodes are given (C83), XML and names are left out."
  },
  {
   "property": "C88",
   "status": "partial",
   "theorems": [
    "Verif.Props.C88_marked",
    "Verif.Props.C88_distribution",
    "Verif.Props.C88_greatest",
    "Verif.Props.C88_monotone",
    "Verif.Props.C88_refused",
    "Verif.Props.C88_documented_partial",
    "Verif.Props.C88_refuted_documented",
    "Verif.Props.C88_refuted_zero"
   ],
   "note": "The documented criterion `marker_i \u2265 \u03b8 max(marker)` is false for equality (`C88_refuted_documented`); if all values are zero it holds for all entities, and none is marked (`C88_refuted_zero`). What the code does is proved in full, in exact arithmetic: rounding of `theta * max` and NaN are not modelled; all processes pass the same `theta`."
  },
  {
   "property": "C89",
   "status": "partial",
   "theorems": [
    "Verif.Props.C89_eval_partial",
    "Verif.Props.C89_cpp_partial",
    "Verif.Props.C89_apply",
    "Verif.Props.C89_refused_entities",
    "Verif.Props.C89_refused_array",
    "Verif.Props.C89_refused_data",
    "Verif.Props.C89_refuted_sub_argument",
    "Verif.Props.C89_refuted_blocked",
    "Verif.Props.C89_refuted_mixed"
   ],
   "note": "Proved for all expressions without arguments, and for arguments whose elements need no dof transformation or one that works from the right (C79). False for arguments of blocked elements with transformations that are not symmetric (`C89_refuted_blocked`), of mixed elements with transformations (`C89_refuted_mixed`), and for arguments from vector-valued sub-spaces, where the array for the kernel is too small (`C89_refuted_sub_argument`). Generated kernels are trusted to add the numbers that they stand for; arithmetic is exact; one cell type."
  },
  {
   "property": "C90",
   "status": "partial",
   "theorems": [
    "Verif.Props.C90_solve_partial",
    "Verif.Props.C90_history",
    "Verif.Props.C90_unchanged",
    "Verif.Props.C90_errors",
    "Verif.Props.C90_dtype",
    "Verif.Props.C90_dtype_class",
    "Verif.Props.C90_refuted_dtype",
    "Verif.Props.C90_refuted_negative"
   ],
   "note": "Proved under the condition that the library never returns a negative code: negative codes are taken as success (`C90_refuted_negative`). A function `u` is refused with the default `dtype` of the same scalar type (`C90_refuted_dtype`). SuperLU_DIST is an arbitrary function that solves systems when it returns 0; arithmetic is exact; one rank's exception is taken as an exception of the call; `jit` and the creation of the objects are not modelled (the sparsity pattern is that of C18/C45)."
  },
  {
   "property": "C91",
   "status": "proved",
   "theorems": [
    "Verif.Props.C91_residual",
    "Verif.Props.C91_jacobian",
    "Verif.Props.C91_zero",
    "Verif.Props.C91_newton",
    "Verif.Props.C91_steps",
    "Verif.Props.C91_solve",
    "Verif.Props.C91_solution"
   ],
   "note": "For one form (several fields are C107). PETSc is trusted: ghost updates are the scatters of C10/C11, values added to a matrix by ranks are summed at global indices, entries outside the preallocated pattern are not an error (the pattern is C18/C45), the Jacobian is used as preconditioner if no form is given. SNES is an arbitrary program that sees owned entries only; whether it converges is not claimed. Arithmetic is exact; a form depends on `u` through the local array only."
  },
  {
   "property": "C92",
   "status": "partial",
   "theorems": [
    "Verif.Props.C92_extract",
    "Verif.Props.C92_checked",
    "Verif.Props.C92_geometry",
    "Verif.Props.C92_groups",
    "Verif.Props.C92_table",
    "Verif.Props.C92_mesh",
    "Verif.Props.C92_tag_input",
    "Verif.Props.C92_tags_partial",
    "Verif.Props.C92_refuted_waits",
    "Verif.Props.C92_refuted_alone",
    "Verif.Props.C92_refuted_pyramid",
    "Verif.Props.C92_refuted_names",
    "Verif.Props.C92_refuted_type92"
   ],
   "note": "The Gmsh API is trusted to return what `Spec/Gmsh.Api` says; creation and distribution of the mesh are C70 and others, not composed here. Tags inherit the conditions of `C73_tags_partial` (as many input nodes as nodes of the mesh), and are stated for entities whose corners come first, as in Gmsh. It is proved what holds if `model_to_mesh` gets to the end, and that it gets there for an example, not for which models it does. False as documented: some errors are raised on one rank while the others wait (`C92_refuted_waits`, `C92_refuted_alone`), pyramids are refused (`C92_refuted_pyramid`), groups of the same name are lost (`C92_refuted_names`), hexahedra of degree 3 are listed but refused (`C92_refuted_type92`)."
  },
  {
   "property": "C93",
   "status": "partial",
   "theorems": [
    "Verif.Props.C93_h",
    "Verif.Props.C93_midpoints",
    "Verif.Props.C93_edge_normals",
    "Verif.Props.C93_face_normals",
    "Verif.Props.C93_same",
    "Verif.Props.C93_refused",
    "Verif.Props.C93_zero",
    "Verif.Props.C93_refuted_h_vertices",
    "Verif.Props.C93_refuted_sign"
   ],
   "note": "Arithmetic is exact and the square root is one; meshes with one cell type; non-degenerate entities for normals. `h` is documented as a distance between vertices, but takes all nodes (`C93_refuted_h_vertices`); it is proved for nodes. The sign of a normal depends on the cell found first (`C93_refuted_sign`). Normals of quadrilaterals and of curved faces are those of the plane through the first three corners."
  },
  {
   "property": "C94",
   "status": "partial",
   "theorems": [
    "Verif.Props.C94_mesh",
    "Verif.Props.C94_space",
    "Verif.Props.C94_types",
    "Verif.Props.C94_refused",
    "Verif.Props.C94_refuted_pyramid",
    "Verif.Props.C94_refuted_first"
   ],
   "note": "Pyramids of degree two get a type that has five nodes (`C94_refuted_pyramid`); spaces of degree one on prisms and pyramids end in a `KeyError` (`C94_refuted_first`). Types are proved for Lagrange cells, not for the 20-node hexahedron and the 15-node prism. That the nodes of the closure of an entity, in increasing order, are in DOLFINx' order for the shape of the entity is a property of Basix and not proved. Coordinates are passed on as they are."
  },
  {
   "property": "C95",
   "status": "partial",
   "theorems": [
    "Verif.Props.C95_distance_partial",
    "Verif.Props.C95_only_limit",
    "Verif.Props.C95_apart",
    "Verif.Props.C95_threads",
    "Verif.Props.C95_refuted_tie",
    "Verif.Props.C95_refuted_uninitialised",
    "Verif.Props.C95_refuted_small",
    "Verif.Props.C95_refuted_limit"
   ],
   "note": "Exact arithmetic (real numbers) instead of floating point. The full claim is false: with a tie the result is not even between the bodies (`C95_refuted_tie`); so it is proved without ties, except for bodies with a common point, which have none (`C95_apart`). It needs the diagonal of a local array, which is never set, not to be positive (`C95_refuted_uninitialised`); for the extended type of Boost it is zero. The tolerance is absolute, so results for small bodies can be far off (`C95_refuted_small`). 15 iterations need not be enough (`C95_refuted_limit`); it is not proved for which bodies they are. The exception of a body handled by another thread ends the program; this is not modelled."
  },
  {
   "property": "C96",
   "status": "partial",
   "theorems": [
    "Verif.Props.C96_vector_partial",
    "Verif.Props.C96_squared_partial",
    "Verif.Props.C96_only_limit",
    "Verif.Props.C96_colliding_partial",
    "Verif.Props.C96_first_partial",
    "Verif.Props.C96_refuted_reduce",
    "Verif.Props.C96_refuted_small"
   ],
   "note": "Exact arithmetic, as in C95. That no candidate containing the point is missed is proved without conditions on the position; distances, and that cells found are near, without ties (C95). `compute_first_colliding_cell` is proved for a `std::reduce` that goes from left to right, as libraries do; the operation given to it is neither commutative nor associative, and with another order that the standard allows a cell at distance 5 is returned (`C96_refuted_reduce`). The tolerance of `compute_colliding_cells` is absolute (`C96_refuted_small`). It is not proved that GJK ends within its 15 iterations. Candidates are given (their computation by trees is C49)."
  },
  {
   "property": "C97",
   "status": "partial",
   "theorems": [
    "Verif.Props.C97_search_partial",
    "Verif.Props.C97_ends_partial",
    "Verif.Props.C97_refuted_curved",
    "Verif.Props.C97_refuted_single"
   ],
   "note": "The composition of C49 and C96. That containing cells are found is proved without conditions on the position; that listed cells are near, without ties (C95). It is proved when the search gets to the end, and that, without ties, only the limit of GJK's iterations can stop it, unless the tree has one cell with a number other than 0 (`C97_refuted_single`, see C49). Cells are hulls of nodes: a point of a curved cell outside of this hull is not found (`C97_refuted_curved`). The closure of a cell in the coordinate element is assumed to have all its dofs."
  },
  {
   "property": "C98",
   "status": "partial",
   "theorems": [
    "Verif.Props.C98_graph",
    "Verif.Props.C98_data",
    "Verif.Props.C98_weights",
    "Verif.Props.C98_rank_type",
    "Verif.Props.C98_json",
    "Verif.Props.C98_text",
    "Verif.Props.C98_other",
    "Verif.Props.C98_refuted_root",
    "Verif.Props.C98_refuted_empty"
   ],
   "note": "All of the claim is proved for the C++ function, except that other ranks get an empty graph: they get a node for each rank, with sizes zero and no edges (`C98_other`, `C98_refuted_empty`). Python's `comm_graph` does not pass `root` on, so that the graph arrives on rank 0 (`C98_refuted_root`). MPI's gather, neighbourhood exchange and splitting are assumed to work as specified; JSON texts are given by a grammar, of which uniqueness of the value is not proved. Overflow of `int32` is not modelled."
  },
  {
   "property": "C99",
   "status": "partial",
   "theorems": [
    "Verif.Props.C99_elapsed",
    "Verif.Props.C99_log",
    "Verif.Props.C99_once",
    "Verif.Props.C99_with",
    "Verif.Props.C99_timing",
    "Verif.Props.C99_refuted_stopped",
    "Verif.Props.C99_refuted_twice"
   ],
   "note": "The last sentence of the claim, which is in the documentation of the destructor, is false: a timer that is stopped when it is destroyed is not logged (`C99_refuted_stopped`). The second with-block of one timer is not logged either (`C99_refuted_twice`). All else is proved. The clock is assumed not to go back (`high_resolution_clock` need not be steady); sums are exact instead of `double`; each call reads the clock once, at one time."
  },
  {
   "property": "C100",
   "status": "partial",
   "theorems": [
    "Verif.Props.C100_list_partial",
    "Verif.Props.C100_missing",
    "Verif.Props.C100_refuted_missing",
    "Verif.Props.C100_refuted_average"
   ],
   "note": "Proved where every task has been timed on rank 0 too. Otherwise nothing is printed: whenever rank 0 has timed some task, but not one that another rank has timed, formatting throws on rank 0 (`C100_missing`, `C100_refuted_missing`). The last sentence is false: the sum is divided by the number of all ranks, so that a task of rank 0 alone has an average below its minimum (`C100_refuted_average`). The order of lines, titles and layout of the text are not modelled; names must not contain the zero character (as names of C strings); sums are exact instead of `double`; MPI's gather is assumed to work as specified."
  },
  {
   "property": "C101",
   "status": "proved",
   "theorems": [
    "Verif.Props.C101_dense",
    "Verif.Props.C101_scipy",
    "Verif.Props.C101_norm",
    "Verif.Props.C101_norm_global",
    "Verif.Props.C101_pattern"
   ],
   "note": "Compact block mode (with block size 1 also expanded mode, whose arrays are those of a scalar pattern). Arithmetic is exact; SciPy's reading of the arrays is given in the specification, and that the data are shared is not modelled."
  },
  {
   "property": "C102",
   "status": "partial",
   "theorems": [
    "Verif.Props.C102_order",
    "Verif.Props.C102_all_partial",
    "Verif.Props.C102_ends",
    "Verif.Props.C102_refuted_interrupt"
   ],
   "note": "Proved for calls that return or raise an `Exception`. `KeyboardInterrupt` and `SystemExit` are not caught by `except Exception`: if rank 0's call ends so, the other ranks wait in the broadcast for ever (`C102_refuted_interrupt`). Broadcast and reduction are assumed to work as MPI specifies; messages of exceptions are three constants; that compiler calls come to an end is assumed (a call that does not would be an execution that stops in it)."
  },
  {
   "property": "C103",
   "status": "proved",
   "theorems": [
    "Verif.Props.C103_geometry",
    "Verif.Props.C103_ranks",
    "Verif.Props.C103_refused"
   ],
   "note": "The dofmap and index map of the space that `create_functionspace` makes are parameters with the right sizes (what they are is C42). Elements are given by nodes and basis functions, exact arithmetic. Building of the UFL domain in Python is not modelled."
  },
  {
   "property": "C104",
   "status": "proved",
   "theorems": [
    "Verif.Props.C104_no_error",
    "Verif.Props.C104_owned",
    "Verif.Props.C104_freed",
    "Verif.Props.C104_holds",
    "Verif.Props.C104_self"
   ],
   "note": "One rank: that all ranks duplicate and free in the same order, as MPI asks, is up to the program. `MPI_Comm_dup` gives a handle that has not been used before (handles of freed communicators may be reused by MPI; then handles stand for communicators), and MPI fails only for communicators that do not exist. An object moved to itself loses its communicator, which is freed (`C104_self`; the standard leaves the value open)."
  },
  {
   "property": "C105",
   "status": "partial",
   "theorems": [
    "Verif.Props.C105_system",
    "Verif.Props.C105_solution",
    "Verif.Props.C105_history",
    "Verif.Props.C105_prefix",
    "Verif.Props.C105_options_partial",
    "Verif.Props.C105_tidy",
    "Verif.Props.C105_refuted_lost",
    "Verif.Props.C105_refuted_left"
   ],
   "note": "What is said of the system and the solution is proved in full. Of the options the last sentence fails: an option that the user has set under the same prefix and that is passed as well is deleted afterwards (`C105_refuted_lost`), and if `setFromOptions` raises, the passed options stay in the database (`C105_refuted_left`; the pushed prefix stays as well). `C105_tidy` is the case in which the claim holds. Problems with several fields are C106; convergence is the matter of the solver; exact arithmetic; an entry outside the preallocated pattern is not an error here. Without options (`None`) the solver does not read the database at all, as stated in `C105_options_partial`."
  },
  {
   "property": "C106",
   "status": "proved",
   "theorems": [
    "Verif.Props.C106_system",
    "Verif.Props.C106_equivalent",
    "Verif.Props.C106_solution",
    "Verif.Props.C106_history",
    "Verif.Props.C106_refused"
   ],
   "note": "The fields have different spaces, in one mesh; conditions are sorted by field as in C85 and entries of block vectors and matrices lie as in C84, so that nest and block (mpi) matrices are the same here. Arrays with a row or a column of `None` are not covered (`forms` and `preForms` of `ProblemOk`; the code raises). Convergence is the matter of the solver; exact arithmetic; an entry outside the preallocated pattern is not an error here. Options are those of C105."
  },
  {
   "property": "C107",
   "status": "proved",
   "theorems": [
    "Verif.Props.C107_residual",
    "Verif.Props.C107_zero",
    "Verif.Props.C107_newton",
    "Verif.Props.C107_jacobian",
    "Verif.Props.C107_solve",
    "Verif.Props.C107_solution"
   ],
   "note": "The fields have different spaces, in one mesh; vectors and matrices by field as in C106, with the same assumptions about PETSc. SNES is an arbitrary program that sees owned entries only; whether it converges is not claimed. Arrays with a row or column of `None` are not covered. Arithmetic is exact; a form depends on the functions through their local arrays only."
  },
  {
   "property": "C108",
   "status": "partial",
   "theorems": [
    "Verif.Props.C108_script",
    "Verif.Props.C108_view",
    "Verif.Props.C108_frame",
    "Verif.Props.C108_copy",
    "Verif.Props.C108_collapse",
    "Verif.Props.C108_interpolate",
    "Verif.Props.C108_disjoint",
    "Verif.Props.C108_others",
    "Verif.Props.C108_subspace",
    "Verif.Props.C108_split_partial",
    "Verif.Props.C108_refuted_split_one",
    "Verif.Props.C108_refuted_split_none"
   ],
   "note": "All but the claim about `split` is proved in full. `split` refuses functions with exactly one sub-function (a mixed element with one sub-element or a vector with one component), although `sub(0)` exists (`C108_refuted_split_one`), and for functions without sub-functions it returns an empty tuple where an exception is due (`C108_refuted_split_none`). One rank, one cell type; the space and map that `DofMap::collapse` gives are a parameter (what they are is C69), and the values that interpolation computes are given (C76). Names, scalar types and negative indices are left out."
  },
  {
   "property": "C109",
   "status": "partial",
   "theorems": [
    "Verif.Props.C109_series_partial",
    "Verif.Props.C109_refuted_empty",
    "Verif.Props.C109_refuted_mixed",
    "Verif.Props.C109_refuted_width",
    "Verif.Props.C109_refuted_size"
   ],
   "note": "Proved for series of one kind of data and one width on processes that all have points (or cells), with less than 2\u00b3\u00b9 points in all. The code refutes each of these restrictions: a process without points divides by zero (`C109_refuted_empty`); the second kind of data in a file ends with an exception after `NSteps` has been increased (`C109_refuted_mixed`); a call with another width changes the width of all earlier steps (`C109_refuted_width`); the number of points of the mesh is added up in `int` (`C109_refuted_size`). HDF5 is the list model of C66 together with `H5Dset_extent`; attributes `NumberOfComponents` and `Vectors` are left out."
  },
  {
   "property": "C110",
   "status": "proved",
   "theorems": [
    "Verif.Props.C110_create",
    "Verif.Props.C110_order",
    "Verif.Props.C110_lists",
    "Verif.Props.C110_again",
    "Verif.Props.C110_missing",
    "Verif.Props.C110_checked",
    "Verif.Props.C110_as_form"
   ],
   "note": "What FFCx gives is assumed: positions within the coefficients of the UFL form, names `w0, \u2026` and `c0, \u2026`, no id twice (`IsCompiled`). Each id of an integral has exactly one pair in the lists (`Fitting`); without one the form cannot be assembled, which is `C60_refuted_gap`. One cell type; entity maps, the geometry's hash and scalar types are left out. The lists of the caller are sorted in place, since the copy of the dictionary has the same lists."
  },
  {
   "property": "C111",
   "status": "partial",
   "theorems": [
    "Verif.Props.C111_wrappers",
    "Verif.Props.C111_newton_partial",
    "Verif.Props.C111_refuted_move",
    "Verif.Props.C111_refuted_taken",
    "Verif.Props.C111_refuted_assign",
    "Verif.Props.C111_refuted_set"
   ],
   "note": "Proved in full for vectors, operators, matrices, linear solvers and eigensolvers (`C111_wrappers`), and for Newton solvers in programs that do not move them and set each of `F`, `J`, `P` once (`C111_newton_partial`). The code refutes the rest: the defaulted move constructor and move assignment of `NewtonSolver` copy its raw pointers, so that two destructors release one reference (`C111_refuted_move`, `C111_refuted_taken`, `C111_refuted_assign`); `setF`, `setJ` and `setP` forget the object set before without releasing it (`C111_refuted_set`). PETSc is modelled by its counts of references; references among PETSc objects (a KSP and its operators) are left out."
  },
  {
   "property": "C112",
   "status": "partial",
   "theorems": [
    "Verif.Props.C112_options_partial",
    "Verif.Props.C112_refuted_append",
    "Verif.Props.C112_refuted_prio"
   ],
   "note": "Proved for all programs that change no list in place. The code refutes the rest: the copy is shallow, so the list of `cffi_extra_compile_args` that a call returns is the list of the defaults (or of the cached file), and appending to it changes the options of all later calls (`C112_refuted_append`); a list in the dictionary given to the call is shared in the same way (`C112_refuted_prio`). FFCx's own options, the order of keys and the names of files beyond joining with `/` are left out; `Path(str(v)).expanduser()` is an arbitrary function."
  },
  {
   "property": "C113",
   "status": "partial",
   "theorems": [
    "Verif.Props.C113_distances",
    "Verif.Props.C113_threads",
    "Verif.Props.C113_exception_partial",
    "Verif.Props.C113_refuted_exception",
    "Verif.Props.C113_bad"
   ],
   "note": "Proved in full for bodies that all have a distance; exceptions for bodies that the calling thread takes. The code refutes the rest: an exception that leaves another thread ends the whole program, for every interleaving (`C113_refuted_exception`). `compute_distance_gjk` is an arbitrary function here (C95 is about it); the three components of a row are written at once; the move of `results` is taken to be elided."
  },
  {
   "property": "C114",
   "status": "proved",
   "theorems": [
    "Verif.Props.C114_points",
    "Verif.Props.C114_numbers"
   ],
   "note": "The index map is the start of its local range, the sum over the processes before (C05 proves that of `IndexMap`). The element, data types and the UFL domain are left out; memory is a function of the address."
  },
  {
   "property": "C115",
   "status": "partial",
   "theorems": [
    "Verif.Props.C115_dims",
    "Verif.Props.C115_xml",
    "Verif.Props.C115_path_partial",
    "Verif.Props.C115_refuted_colon",
    "Verif.Props.C115_h5name_partial",
    "Verif.Props.C115_h5name_inj_partial",
    "Verif.Props.C115_refuted_clash"
   ],
   "note": "Shapes and XML numbers are proved in full. Paths are read back if and only if no name has a colon; the code refutes the rest: a mesh named `a:b` is written and cannot be read (`C115_refuted_colon`). HDF5 files are different for names that end in `.xdmf`; for other extensions they need not be: `run.1` and `run.2` share `run.h5` (`C115_refuted_clash`). Writing and reading a single number, and pugixml, are trusted (floating point numbers in the XML format lose digits: C74)."
  },
  {
   "property": "C116",
   "status": "partial",
   "theorems": [
    "Verif.Props.C116_exact",
    "Verif.Props.C116_series_partial",
    "Verif.Props.C116_refuted_overwritten",
    "Verif.Props.C116_refuted_prefix"
   ],
   "note": "Proved for every program: each step has its time and place, and the values last written for its name and time (`C116_exact`); hence its own values if no two attributes have the same name and time (`C116_series_partial`). The code refutes the rest: the place in the HDF5 file is made of name and time only and is written over, so that two functions with the default name `f` at the default time 0 both show the values of the second (`C116_refuted_overwritten`); so do `real_u` and the real part of `u` (`C116_refuted_prefix`). Arrays of different sizes for one place (an HDF5 error), names with characters that XPath or HDF5 interpret, and the values themselves (C87) are left out."
  },
  {
   "property": "C117",
   "status": "partial",
   "theorems": [
    "Verif.Props.C117_series_partial",
    "Verif.Props.C117_refuted_dot",
    "Verif.Props.C117_refuted_million"
   ],
   "note": "Proved for names without a further dot and up to a million steps, on any number of processes. The code refutes the rest: `replace_extension` is used on the stem with the counter appended, so that for a name such as `u_0.5.pvd` it cuts off the counter and the rank, and all processes write all steps to `u_0.vtu` (`C117_refuted_dot`); step number 1000000 has more digits than the counter and raises an exception (`C117_refuted_million`). The contents of the pieces are C64 and C87; directories and failures of the file system are left out."
  },
  {
   "property": "C118",
   "status": "partial",
   "theorems": [
    "Verif.Props.C118_update_partial",
    "Verif.Props.C118_reuse_partial",
    "Verif.Props.C118_components",
    "Verif.Props.C118_checked",
    "Verif.Props.C118_refuted_order",
    "Verif.Props.C118_refuted_names"
   ],
   "note": "Proved for lists whose first function is not constant on cells (or that are all constant), with names that are all distinct and none of those the writer uses. The code refutes the rest: `write` takes the nodes from the first function of the list (`_u[0]`) instead of the space that the constructor has chosen, so that a list that begins with a function constant on cells gets a mesh with one node for each cell (`C118_refuted_order`); names of functions that are constant on cells are not checked (`C118_refuted_names`). ADIOS2 and the reader are simplified as described in the model."
  },
  {
   "property": "C119",
   "status": "partial",
   "theorems": [
    "Verif.Props.C119_mesh_partial",
    "Verif.Props.C119_geometry_partial",
    "Verif.Props.C119_tags_partial",
    "Verif.Props.C119_info_partial",
    "Verif.Props.C119_absent",
    "Verif.Props.C119_paths",
    "Verif.Props.C119_refuted_tags",
    "Verif.Props.C119_refuted_function",
    "Verif.Props.C119_refuted_info"
   ],
   "note": "Proved for meshes, geometries and tags whose name no other call uses, whatever is written before and after; for information, the value of the first call with the name is read. The code refutes the rest: a second set of tags with the same name (the default is `mesh_tags`) replaces the arrays of the first without a message (`C119_refuted_tags`); a function with the name of a mesh hides it (`C119_refuted_function`); information that is written again keeps its old value (`C119_refuted_info`). Paths are triples, whose texts are different for all names (`C119_paths`). Arrays written to one path are taken to have one size."
  }
 ]
}