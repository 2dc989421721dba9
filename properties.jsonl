{"id": "C01", "title": "local_range tiles the index range evenly", "statement": "For a global count N split over `size` processes, the half-open ranges returned by MPI local_range for ranks 0..size-1 start at 0, end at N, each range starts where the previous one ends, and any two ranges differ in length by at most one (longer ones first). So every index 0..N-1 is in the range of exactly one rank.", "quantifier": "for every N >= 0, every size >= 1 and every rank", "why_tests_cant": "A test samples a few (N,size) pairs; the off-by-one cases live at N mod size boundaries for every size.", "anchors": ["cpp/dolfinx/common/local_range.h: local_range"]}
{"id": "C02", "title": "index_owner names the rank whose local_range holds the index", "statement": "For every index below N, index_owner(size,index,N) returns a valid rank and the index lies inside the range local_range gives to that rank; no other rank's range holds it. In particular every process that asks for the owner of an index and the owner itself agree.", "quantifier": "for every N, size >= 1 and index < N", "why_tests_cant": "Agreement between two closed formulas over all integers, including N < size where the quotient is zero and the second branch would divide by zero.", "anchors": ["cpp/dolfinx/common/MPI.h: index_owner", "cpp/dolfinx/common/local_range.h: local_range"]}
{"id": "C03", "title": "radix_sort is a stable sort", "statement": "After radix_sort(range, proj) the range is a permutation of the input, ordered by the projected key (signed keys in signed order), and elements with equal keys keep their input order; this holds for every integral key type.", "quantifier": "for every input range, every key type width w, signed or unsigned, and every digit width BITS with 1 <= BITS", "why_tests_cant": "Unit tests use short ranges and a few key types. The claim is about all lengths: per-bucket counters are kept in the key type itself and wrap when a range is longer than the key type can count.", "anchors": ["cpp/dolfinx/common/sort.h: radix_sort, _unsigned_projection"]}
{"id": "C04", "title": "sort_by_perm returns the stable lexicographic row order", "statement": "sort_by_perm(x, shape1, ncols) returns a permutation of the row numbers such that the rows, read through it, are in lexicographic order on their leading ncols columns (column 0 most significant), and rows equal on those columns keep their input order. The column-major overload returns the same order for the same table.", "quantifier": "for every integer table, every number of columns and every ncols <= number of columns", "why_tests_cant": "Lexicographic order arises from a chain of stable passes; a failure needs a particular tie pattern across columns.", "anchors": ["cpp/dolfinx/common/sort.h: sort_by_perm (row-major and column-major)"]}
{"id": "C05", "title": "IndexMap ranges: global numbering is contiguous by rank", "statement": "Building an IndexMap from each rank's owned size gives every rank a contiguous half-open range of global indices; rank 0 starts at 0, each rank starts where the previous ends, all ranks report the same global size, equal to the sum of owned sizes, and every global index below it is owned by exactly one rank.", "quantifier": "for every number of ranks and every vector of owned sizes (zeros included)", "why_tests_cant": "Every distribution of sizes over every number of processes, including ranks with no owned index.", "anchors": ["cpp/dolfinx/common/IndexMap.cpp: IndexMap::IndexMap, local_range, size_global"]}
{"id": "C06", "title": "IndexMap local_to_global and global_to_local are inverse", "statement": "On one rank, for every local index (owned or ghost) global_to_local(local_to_global(i)) = i; for every global index that is owned or ghosted here local_to_global(global_to_local(g)) = g; for every other global index global_to_local gives -1. global_indices() lists local_to_global of every local index in order.", "quantifier": "for every owned range, every list of distinct ghosts outside the range, every queried index", "why_tests_cant": "Ghosts arrive in arbitrary order and lookups use a binary search on a sorted copy, so correctness depends on all orders and all query values.", "anchors": ["cpp/dolfinx/common/IndexMap.cpp: local_to_global, global_to_local, global_indices"]}
{"id": "C07", "title": "NBX graph-edge discovery finds exactly the in-edges, for every message schedule", "statement": "If every rank calls compute_graph_edges_nbx with its list of destination ranks, then in every execution in which a rank returns, the list it returns contains each rank that named it as a destination exactly as often as it was named and no other rank, whatever the interleaving of sends, receives, matching and barrier completions. Messages of this call are never left unreceived.", "quantifier": "for every number of ranks, every edge list per rank, and every reachable interleaving of the protocol", "why_tests_cant": "Races between the last synchronous-send acknowledgement, the non-blocking barrier and the final cancel of the listener happen only under particular schedules.", "anchors": ["cpp/dolfinx/common/MPI.cpp: nbx_consensus_rounds, compute_graph_edges_nbx"]}
{"id": "C08", "title": "PCX graph-edge discovery finds exactly the in-edges", "statement": "If every rank calls compute_graph_edges_pcx with its list of distinct destination ranks, each rank returns, up to order, exactly the ranks that listed it, in every message delivery order, and it posts exactly as many receives as messages are sent to it.", "quantifier": "for every number of ranks, every edge list and every message arrival order", "why_tests_cant": "Arrival order of wildcard receives cannot be forced in a test.", "anchors": ["cpp/dolfinx/common/MPI.cpp: compute_graph_edges_pcx"]}
{"id": "C09", "title": "distribute_data returns exactly the requested rows", "statement": "Given row data distributed over the ranks of comm1 in any contiguous partition, distribute_data on comm0 returns on every rank, for each requested global row index, in request order (repeats allowed), the values of that row.", "quantifier": "for every number of ranks, every row distribution, every row width and every list of requested indices on every rank", "why_tests_cant": "Row placement has three cases (held locally, this rank is the post office, fetched from a remote post office); which one fires depends on the data distribution relative to the balanced one.", "anchors": ["cpp/dolfinx/common/MPI.h: distribute_data, distribute_to_postoffice, distribute_from_postoffice", "cpp/dolfinx/common/MPI.cpp: postoffice_plan"]}
{"id": "C10", "title": "Forward scatter copies the owner's value into every ghost", "statement": "After packing, exchanging and unpacking with a Scatterer built from an IndexMap and block size, each ghost block entry on each rank equals the value of the same component of the owning rank's owned block with that global index; owned entries are unchanged.", "quantifier": "for every number of ranks, every valid ghost layout (any order, several owners), every block size and all values", "why_tests_cant": "Depends on sort stability, neighbour ordering and displacement arithmetic across all ranks at once.", "anchors": ["cpp/dolfinx/common/Scatterer.h: Scatterer, scatter_fwd_begin, scatter_end", "cpp/dolfinx/la/Vector.h: scatter_fwd_begin, scatter_fwd_end"]}
{"id": "C11", "title": "Reverse scatter accumulates every ghost contribution into its owner exactly once", "statement": "After a reverse scatter with an operation op, the owned entry for global index g is op folded over its own value and exactly one value from each rank that ghosts g; for addition the total over all ranks of owned values plus ghost values before equals the total of owned values after, and reverse scatter with addition is the transpose (adjoint) of forward scatter.", "quantifier": "for every number of ranks, ghost layout, block size and values", "why_tests_cant": "Double counting or loss shows only for particular shared-index patterns; the adjoint identity is over all vectors.", "anchors": ["cpp/dolfinx/common/Scatterer.h: scatter_rev_begin", "cpp/dolfinx/la/Vector.h: scatter_rev_begin, scatter_rev_end"]}
{"id": "C12", "title": "Vector inner product and norms count each global entry once", "statement": "inner_product(a,b) returned on every rank equals the sum over all global indices of conj(a_g) b_g with owned values only (ghost values have no influence); the l1, l2-squared and linf norms equal the corresponding reductions over the owned entries of all ranks, and are defined for every distribution including ranks that own nothing.", "quantifier": "for every number of ranks, every distribution of owned sizes (zero included), all values of owned and ghost entries", "why_tests_cant": "Ranks with zero owned entries and stale ghosts are not covered by sampled tests.", "anchors": ["cpp/dolfinx/la/Vector.h: inner_product, norm, squared_norm"]}
{"id": "C13", "title": "orthonormalize returns an orthonormal basis of the same space", "statement": "For linearly independent input vectors, after orthonormalize every pair of distinct basis vectors has inner product zero and each has norm one, over real and over complex scalars; linearly dependent input is rejected.", "quantifier": "for every number of vectors, every length, all scalar values (exact arithmetic), real and complex", "why_tests_cant": "The order of arguments of a sesquilinear form only matters for genuinely complex data.", "anchors": ["cpp/dolfinx/la/Vector.h: orthonormalize, is_orthonormal"]}
{"id": "C14", "title": "SparsityPattern holds exactly the inserted entries", "statement": "After finalisation each locally owned row of a SparsityPattern lists, in strictly increasing column order, exactly the columns that were inserted for that row on this rank (by insert, insert_diagonal) or on any rank that ghosts the row, with each column once and the diagonal/off-diagonal split at the first non-owned column.", "quantifier": "for every sequence of insert calls on every rank, in any order with any repetition", "why_tests_cant": "All insertion orders, duplicates and cross-rank contributions cannot be enumerated.", "anchors": ["cpp/dolfinx/la/SparsityPattern.cpp: insert, insert_diagonal, finalize"]}
{"id": "C15", "title": "SparsityPattern life cycle is enforced", "statement": "Inserting into a finalised pattern raises an error and changes nothing; querying counts or the graph before finalisation raises an error; finalising twice raises an error; after finalisation the reported counts agree with the stored rows.", "quantifier": "for every history of calls on one pattern", "why_tests_cant": "Quantifies over call histories.", "anchors": ["cpp/dolfinx/la/SparsityPattern.cpp: insert, finalize, num_nonzeros, nnz_diag, nnz_off_diag, graph"]}
{"id": "C16", "title": "MatrixCSR set/add touch exactly the addressed entries", "statement": "A successful set stores, and a successful add accumulates, the given dense block at the addressed (row, column) positions and leaves every other stored entry unchanged; if an addressed position is not in the sparsity pattern an error is raised. Adding is independent of the order of calls, so the assembled value is the sum of all contributions.", "quantifier": "for every sparsity pattern, every block size combination, every list of rows/columns and every sequence of calls", "why_tests_cant": "Quantifies over patterns, blocks and call orders; the blocked path looks up only the first column of each block.", "anchors": ["cpp/dolfinx/la/matrix_csr_impl.h: insert_csr, insert_blocked_csr, insert_nonblocked_csr", "cpp/dolfinx/la/MatrixCSR.h: set, add"]}
{"id": "C17", "title": "MatrixCSR failed insertion leaves the matrix unchanged", "statement": "If set or add raises because some addressed entry is missing from the pattern, the stored values are the same as before the call.", "quantifier": "for every matrix, block and row/column list containing a missing entry", "why_tests_cant": "The interesting input is one where the missing entry is not the first one visited.", "anchors": ["cpp/dolfinx/la/matrix_csr_impl.h: insert_csr"]}
{"id": "C18", "title": "MatrixCSR::scatter_rev conserves the assembled operator", "statement": "Reverse scatter of a matrix adds every value stored in a ghost row to the same global (row,column) entry on the owner and then zeroes the ghost row, so the sum over ranks of the represented global operators is unchanged and afterwards all of it sits in owned rows.", "quantifier": "for every number of ranks, distribution, pattern and values", "why_tests_cant": "Cross-rank bookkeeping with positions computed once at construction; only particular sharing patterns expose a misplaced block.", "anchors": ["cpp/dolfinx/la/MatrixCSR.h: MatrixCSR::MatrixCSR, scatter_rev_begin, scatter_rev_end"]}
{"id": "C19", "title": "MatrixCSR matrix-vector product equals the dense product", "statement": "y after mult(x,y) equals y before plus A times x on owned rows, for any block sizes, where ghost values of x are first refreshed from their owners; multT likewise adds the transposed product with contributions from other ranks accumulated in the owner.", "quantifier": "for every matrix, vector, block sizes and number of ranks", "why_tests_cant": "Splitting at the off-diagonal offset and blocking must agree for all patterns.", "anchors": ["cpp/dolfinx/la/matrix_csr_impl.h: spmv, spmvT", "cpp/dolfinx/la/MatrixCSR.h: mult, multT"]}
{"id": "C20", "title": "MatrixCSR transpose swaps entries", "statement": "The matrix returned by transpose has at (j,i) exactly the value A has at (i,j) for all stored entries, blocks transposed, columns of every row sorted when they were row-sorted; transposing twice gives back the original entries.", "quantifier": "for every matrix, block sizes and distribution", "why_tests_cant": "Bucket-fill cursor arithmetic over all patterns.", "anchors": ["cpp/dolfinx/la/mattrans.h: local_transpose, transpose"]}
{"id": "C21", "title": "matmul returns the matrix product", "statement": "The matrix returned by matmul(A,B) represents the product A*B: entry (i,k) is the sum over j of A(i,j)B(j,k), rows are sorted without repeated columns, and no stored value is zero.", "quantifier": "for every pair of conforming matrices, patterns and values (exact arithmetic)", "why_tests_cant": "Accumulator reset and cancellation handling depend on sequences of rows.", "anchors": ["cpp/dolfinx/la/matmul.h: matmul, fetch_ghost_rows"]}
{"id": "C22", "title": "Matrix transpose/product issue the same collective calls on every rank", "statement": "For every distributed matrix, all ranks of the communicator execute the same sequence of collective operations during transpose and matmul, so the call cannot hang or mismatch.", "quantifier": "for every number of ranks and every neighbourhood structure", "why_tests_cant": "Requires at least three ranks with one isolated rank; the failure mode is a hang.", "anchors": ["cpp/dolfinx/la/mattrans.h: transpose", "cpp/dolfinx/la/matmul.h: fetch_ghost_rows", "cpp/dolfinx/common/IndexMap.cpp: IndexMap::IndexMap, build_src_dest"]}
{"id": "C23", "title": "AdjacencyList constructors and accessors agree", "statement": "An AdjacencyList built from a list of rows returns those rows from links(i), num_links(i) is their length and num_nodes the number of rows; a constant-degree list built from flat data splits it into rows of that degree; flat data whose last offset or degree does not fit is rejected.", "quantifier": "for every list of rows, degree and data array", "why_tests_cant": "All shapes including empty rows and degree zero.", "anchors": ["cpp/dolfinx/graph/AdjacencyList.h: AdjacencyList, regular_adjacency_list, links, num_links"]}
{"id": "C24", "title": "reorder_rcm returns a permutation", "statement": "reorder_rcm returns an array that is a permutation of 0..n-1 for every graph.", "quantifier": "for every adjacency list with n nodes and links in range, connected or not", "why_tests_cant": "Any graph, including disconnected and asymmetric ones; termination and totality are also claims.", "anchors": ["cpp/dolfinx/graph/ordering.cpp: reorder_rcm, rcm_reorder_unlabelled, create_level_structure"]}
{"id": "C25", "title": "graph distribute delivers every node to all its destinations unchanged", "statement": "After graph::build::distribute, each rank holds exactly the nodes that list it as a destination, each with the same links it had on the sending rank, its original global index and source rank; nodes whose first destination is this rank come first, the rest are reported with their first destination as owner.", "quantifier": "for every number of ranks, every adjacency list and every non-empty destination list", "why_tests_cant": "All combinations of degrees and destinations; the buffer width is derived from one node.", "anchors": ["cpp/dolfinx/graph/partition.cpp: distribute (both overloads)"]}
{"id": "C26", "title": "compute_ghost_indices returns the owner's new number", "statement": "For owned index lists without duplicates across ranks, compute_ghost_indices returns for each ghost index the new global number its owner assigned: the owner's offset plus its position in the owner's owned list; new numbers are a bijection from all owned indices onto 0..N-1. The threaded and unthreaded paths agree.", "quantifier": "for every number of ranks and every assignment of distinct owned indices and ghosts with their owners", "why_tests_cant": "All distributions; two alternative lookup implementations must agree.", "anchors": ["cpp/dolfinx/graph/partition.cpp: compute_ghost_indices"]}
{"id": "C27", "title": "compute_local_to_global and compute_local_to_local are consistent", "statement": "If local numbering is a renaming of global link indices, compute_local_to_global returns a map that applied to the local list yields the global list; compute_local_to_local returns, for two numberings of the same distinct globals, the map m with local1_to_global[m[i]] = local0_to_global[i]. Mismatched sizes are rejected.", "quantifier": "for every pair of arrays", "why_tests_cant": "The identity shortcut in compute_local_to_local fires only for a contiguous set of globals; all arrays are covered.", "anchors": ["cpp/dolfinx/graph/partition.cpp: compute_local_to_global, compute_local_to_local"]}
{"id": "C28", "title": "compute_owned_indices gives each marked index to its owner", "statement": "When every rank marks any set of local indices (owned or ghost), compute_owned_indices returns on each rank, sorted and without repetition, exactly the owned indices that some rank marked.", "quantifier": "for every number of ranks, index map and marked lists", "why_tests_cant": "Cross-rank union over all marking patterns.", "anchors": ["cpp/dolfinx/common/IndexMap.cpp: compute_owned_indices"]}
{"id": "C29", "title": "create_sub_index_map yields a consistent sub-map", "statement": "The sub-map covers exactly the chosen indices: every parent global index chosen by some rank is owned in the sub-map by exactly one rank that chose it (its parent owner if that rank chose it), ghosts on other ranks that chose it refer to the same new global number and the correct owner, and the returned list maps each sub-map local index to a parent local index with the same identity. With owner change disallowed the call raises exactly when some chosen index is not chosen by its owner.", "quantifier": "for every number of ranks, parent map and chosen local index lists", "why_tests_cant": "Ownership hand-over depends on which subset of sharing ranks chose an index.", "anchors": ["cpp/dolfinx/common/IndexMap.cpp: create_sub_index_map, compute_submap_indices, compute_submap_ghost_indices"]}
{"id": "C30", "title": "stack_index_maps concatenates maps rank by rank", "statement": "Stacking index maps with block sizes produces, on each rank, a contiguous owned range made of the blocks of each map in order; global numbers of ghosts are the numbers the owner gives the same entry, and distinct entries get distinct numbers covering 0..total-1.", "quantifier": "for every number of ranks, maps, block sizes", "why_tests_cant": "Offsets mix per-rank and per-field sums.", "anchors": ["cpp/dolfinx/common/IndexMap.cpp: stack_index_maps"]}
{"id": "C31", "title": "shared_indices and index_to_dest_ranks report exactly the sharing ranks", "statement": "shared_indices lists exactly the owned indices that are ghosted by some other rank, sorted and once each; index_to_dest_ranks gives for each owned index exactly the ranks ghosting it and for each ghost index its owner and the other ranks ghosting it.", "quantifier": "for every number of ranks and ghost layout", "why_tests_cant": "Third-party sharing appears only with three or more ranks and particular layouts.", "anchors": ["cpp/dolfinx/common/IndexMap.cpp: shared_indices, index_to_dest_ranks"]}
{"id": "C32", "title": "Mesh tags hold exactly the given values on the entities that exist", "statement": "create_meshtags, given entities by their vertices and one value each, returns tags whose entity indices are strictly increasing; an entity of the rank is tagged iff some given vertex list has exactly its vertices, in any order, and its value is the smallest of the values given for it; vertex lists that are no entity of the rank are dropped. find(value) returns exactly the entities with that value, in increasing order. A topology with two entities on the same vertices is refused.", "quantifier": "for every entity-to-vertex table, every list of vertex lists and every list of values of an ordered type", "why_tests_cant": "Depends on the interplay of missing entities (index -1), repeated entities with different values and the sort order; a test samples a few of these patterns.", "anchors": ["cpp/dolfinx/mesh/MeshTags.h: MeshTags, find, create_meshtags", "cpp/dolfinx/mesh/Topology.cpp: entities_to_index", "cpp/dolfinx/common/utils.h: sort_unique"]}
{"id": "C33", "title": "EntityMap maps between mesh and sub-mesh are inverse", "statement": "For an EntityMap between a mesh and a sub-mesh, mapping sub-mesh entities to the parent and back returns the same entities, mapping parent entities that belong to the sub-mesh back and forth returns the same entities, and a parent entity maps to -1 exactly when it is not in the sub-mesh. The constructor accepts a map only if it has one entry per owned and ghost entity of the sub-mesh.", "quantifier": "for every map of every size and every list of entities, including repeated and foreign ones", "why_tests_cant": "The inverse direction is rebuilt through a hash table from the forward array; a test covers a few submeshes only.", "anchors": ["cpp/dolfinx/mesh/EntityMap.h: EntityMap, sub_topology_to_topology"]}
{"id": "C34", "title": "Small matrix kernels compute determinant, inverse, product and pseudo-inverse", "statement": "math::det returns the determinant of 1x1, 2x2 and 3x3 matrices; math::inv writes the two-sided inverse of an invertible one; math::dot adds A B (or A^T B^T) to C; math::pinv writes, for a full rank 3x2 or nx1 matrix, the left inverse with A pinv(A) symmetric; math::cross is the cross product. None of them changes an entry outside its result, and unsupported shapes are refused. This is the algebra behind Jacobians, their inverses and manifold meshes.", "quantifier": "for all matrices over a field (an ordered field for pinv), all extents for dot, in exact arithmetic", "why_tests_cant": "Sign errors in one cofactor can stay invisible for symmetric, diagonal or affine test matrices; the identity is over all entries.", "anchors": ["cpp/dolfinx/common/math.h: cross, difference_of_products, det, inv, dot, pinv"]}
{"id": "C35", "title": "Cells that share a face or edge agree on its orientation", "statement": "compute_entity_permutations stores for every face and edge of a cell a number such that reflecting and then rotating the cell's reference face by it puts the lowest global vertex first and its lower neighbour second (lowest first for an edge). The facet numbers and the packed bits of the cell data agree. So two cells that share a face, on any processes and with the face's vertices stored in any order, orient it to the same vertex sequence; this is what makes higher-order spaces continuous.", "quantifier": "for every cell with distinct vertices, every global vertex numbering, every stored order of the face's vertices, triangles, quadrilaterals and edges", "why_tests_cant": "Needs all relative orders of local and global numbers (36 cases for a triangle, 192 for a quadrilateral), and vertex numbers above 2^31 that no test mesh reaches.", "anchors": ["cpp/dolfinx/mesh/permutationcomputation.cpp: compute_triangle_rot_reflect, compute_quad_rot_reflect, compute_triangle_quad_face_permutations, compute_edge_reflections, compute_entity_permutations"]}
{"id": "C36", "title": "Every cell sees the vertices of an edge or face in the same order", "statement": "When entities are created, the vertices stored for an edge, triangle or quadrilateral are a rotation or reflection of the vertices the cell lists, with the lowest global number first and its lower neighbour second; they do not depend on the cell or process that lists them. The matching key of an entity is its sorted local vertices, so keys agree exactly for entities with the same vertices. Other vertex counts are refused.", "quantifier": "for every injective local-to-global vertex numbering and every listing of 2, 3 or 4 distinct vertices", "why_tests_cant": "The code comment itself says the sorting network was 'proven equivalent by exhaustive random-trial testing'; the quadrilateral rule involves all 24 relative orders.", "anchors": ["cpp/dolfinx/mesh/topologycomputation.cpp: build_entity_list"]}
{"id": "C37", "title": "Entities of the cells of a process are numbered consistently, for any number of threads", "statement": "compute_entities on a process, with any number of threads and any interleaving of their writes, numbers the entities of all cells from 0 without gaps. Two cells list the same entity number exactly when the entities have the same vertices, every number is listed by some cell, the vertices stored for an entity are those of the cell's entity, and an entity is marked as possibly owned exactly when it belongs to an owned cell. The numbering does not depend on the number of threads.", "quantifier": "for every list of cells of any number of cell types, every thread count and schedule, every sort order consistent with the keys", "why_tests_cant": "Thread interleavings, mixed cell types and the choice among equal keys in an unstable parallel sort cannot be enumerated by tests.", "anchors": ["cpp/dolfinx/mesh/topologycomputation.cpp: build_entity_list, compute_entities_by_key_matching", "cpp/dolfinx/common/sort.h: sort_by_perm", "cpp/dolfinx/common/local_range.h: local_range"]}
{"id": "C38", "title": "Mesh entities shared between processes get one owner and one global number", "statement": "compute_entities over all processes gives every entity exactly one owner and one global number: entities on two processes get the same global index exactly when they have the same global vertices. The owner is a process with the entity on one of its own cells, all processes agree on it without communication about ownership, each process numbers its entities from 0 with owned ones first, every ghost gets its owner's number, and the interprocess entities are exactly those on owned cells of two or more processes.", "quantifier": "for every number of processes, every distributed vertex map, every set of cells with ghost cells such that each cell is owned somewhere, every order of equal keys", "why_tests_cant": "Depends on which processes share all vertices of an entity although they need not have it, on a hash of the vertices and on matching lists sent in both directions; tests run few partitions on few processes.", "anchors": ["cpp/dolfinx/mesh/topologycomputation.cpp: get_local_indexing, get_ownership, create_adj_list"]}
{"id": "C39", "title": "All connectivities of a mesh agree with each other", "statement": "create_connectivity(d0, d1) succeeds once entities exist, keeps everything computed before, and stores every pair of types that can be related. Each stored connectivity has one row per entity and only existing entities in it; an upward connectivity lists entity j for entity i exactly as often as the stored downward one lists i for j, in ascending order; the faces of a mesh list their edges in reference order; a type to itself is the identity.", "quantifier": "for every topology of dimension at most 3 with any number of cell types per dimension, every order of earlier create_connectivity calls, every pair of dimensions", "why_tests_cant": "The state depends on which of the 16 dimension pairs were requested before and on mixed cell types; tests fix a mesh and one order of calls.", "anchors": ["cpp/dolfinx/mesh/topologycomputation.cpp: compute_from_transpose, compute_from_map, compute_connectivity", "cpp/dolfinx/mesh/Topology.cpp: create_connectivity"]}
{"id": "C40", "title": "Processes agree on who shares a boundary vertex and who owns it", "statement": "For every vertex on the boundary of its part, each process learns exactly the processes that have the vertex on theirs, each once, and all of them see the same owner first, whichever random numbers are drawn at the post offices. This decides vertex ownership of every distributed mesh.", "quantifier": "for any number of processes, any ascending vertex lists, any thread count, any sequence of random draws", "why_tests_cant": "The random choice of owner, the number of processes and vertex numbers above 2^31 cannot be covered by running examples.", "anchors": ["cpp/dolfinx/mesh/Topology.cpp: determine_sharing_ranks"]}
{"id": "C41", "title": "A distributed mesh gets one consistent vertex numbering", "statement": "create_topology numbers the vertices of all cells a process has, owned and ghost: two vertices, on the same or on different processes, get the same global index exactly if they are the same input vertex. Every process has a valid vertex index map whose local indices have no gaps, and it owns only vertices of cells it owns.", "quantifier": "for any number of processes and threads, any mixture of cell types, any ghost layer, any random choice of owners", "why_tests_cant": "Whether numberings agree depends on the interplay of all processes, on ghost cells whose owner does not own their vertices, and on random choices.", "anchors": ["cpp/dolfinx/mesh/Topology.cpp: create_topology, vertex_ownership_groups, exchange_indexing, exchange_ghost_indexing, convert_to_local_indexing"]}
{"id": "C42", "title": "A dof map numbers the dofs of shared mesh entities consistently", "statement": "build_dofmap_data gives every dof of every mesh entity one number. Two dofs, on the same or on different processes, have the same global number exactly if they are the same dof of the same entity; a dof is owned by the process that owns its entity; each cell lists, at each local position, the dof of the entity the element layout attaches there. Local dof indices have no gaps and the index map is valid, with or without reordering.", "quantifier": "for any number of processes, any consistent topology with any mixture of cell types and ghost cells, any element layout, any reordering function that returns a permutation, any order of completed requests", "why_tests_cant": "Dof numbers on the processes come from separate numberings, renumberings and messages; a disagreement makes assembled systems silently wrong, and it depends on partition, ghost layer, element and reordering.", "anchors": ["cpp/dolfinx/fem/dofmapbuilder.cpp: build_dofmap_data, build_basic_dofmaps, compute_reordering_map, reorder_owned, get_global_indices"]}
{"id": "C43", "title": "A real element has one dof shared by all cells of all processes", "statement": "build_real_element_dofmap creates a valid index map with exactly one global dof; it is owned by the process that owns cell 0, all other processes have it as a ghost, and every cell on every process is mapped to it.", "quantifier": "for every distribution of the cells over any number of processes, including processes without cells", "why_tests_cant": "The owner is found by a reduction over all processes and depends on which processes have no cells.", "anchors": ["cpp/dolfinx/fem/dofmapbuilder.cpp: build_real_element_dofmap"]}
{"id": "C44", "title": "The dual graph links exactly the cells that share a facet", "statement": "build_dual_graph returns, on each process, one node for each of its cells, and a cell is linked to the global number of another cell exactly if the two have a facet in common, whether the other cell is on the same or another process. The graph is symmetric, and with several processes no link is listed twice. This holds if no bound on the cells per facet is passed, or if no facet is in more cells than the bound.", "quantifier": "for any number of processes and threads, any order in which threads run, any mixture of cell types with facets of any size, any vertex numbers, processes without cells, facets shared by any number of cells", "why_tests_cant": "Links between processes are found by sorting facets at processes chosen by vertex number, so which process finds a link depends on the numbering and partition of the whole mesh; a missing link only makes ghost layers or partitions wrong.", "anchors": ["cpp/dolfinx/mesh/graphbuild.cpp: build_dual_graph, build_local_dual_graph, compute_nonlocal_dual_graph"]}
{"id": "C45", "title": "Assembling a matrix over all processes sums all element contributions and imposes constraints exactly", "statement": "create_matrix and assemble_matrix never raise an error for a form that the library accepts, unless the diagonal of a constrained dof is not coupled by the form. After scatter_reverse, each entry of the distributed matrix is, on the owner of its row, zero if the row or column is constrained (the given value on the diagonal of a constrained dof if test and trial space are the same), and otherwise the sum of the entries of all element matrices of all processes for that pair of global dofs, over cell, interior facet, exterior facet, vertex and ridge integrals.", "quantifier": "for any number of processes, any distributed dof maps with block sizes, any element matrices, any set of boundary conditions that is consistent across processes, any integration domains including facets with only one existing cell", "why_tests_cant": "The claim joins the sparsity pattern, the row exchange, the element loops and the zeroing by markers; a wrong offset or a missing pattern entry shows only for some partitions, block sizes or kinds of integral.", "anchors": ["cpp/dolfinx/fem/assemble_matrix_impl.h: assemble_cells_matrix, assemble_entities, assemble_interior_facets, assemble_matrix", "cpp/dolfinx/fem/assembler.h: assemble_matrix, set_diagonal", "cpp/dolfinx/fem/sparsitybuild.cpp: cells, interior_facets", "cpp/dolfinx/fem/utils.h: create_sparsity_pattern, build_sparsity_pattern", "python/dolfinx/fem/assemble.py: assemble_matrix"]}
{"id": "C46", "title": "Assembling a vector and lifting sum all element contributions of all processes", "statement": "assemble_vector and apply_lifting never raise an error for matching arguments. After the reverse scatter each owner holds, for each of its dofs, the sum of the element vectors of all processes for that global dof, minus, for each block of the system, the constrained columns of the block's global matrix times alpha (boundary value - current solution). bc.set writes alpha (boundary value - current solution) into all constrained dofs, owned and ghost, and leaves the others. Where several conditions give a value for a dof, the last one counts in both steps. Mesh with one cell type, or only cell integrals.", "quantifier": "for any number of processes, blocks, dof maps with different block sizes, element tensors, conditions that agree across processes, any alpha and current solution", "why_tests_cant": "Lifting touches only elements with constrained dofs and has to agree with the matrix that is assembled by other code; errors appear for block sizes, interior facets, ghosts or overlapping conditions that a test does not combine.", "anchors": ["cpp/dolfinx/fem/assemble_vector_impl.h: assemble_cells, assemble_entities, assemble_interior_facets, assemble_vector, lift_bc", "cpp/dolfinx/fem/assembler.h: apply_lifting, assemble_vector", "cpp/dolfinx/fem/DirichletBC.h: set, mark_dofs"]}
{"id": "C47", "title": "The assembled system is equivalent to the equations with Dirichlet conditions", "statement": "A vector u solves the system made by assemble_matrix (unit diagonal for constrained dofs), assemble_vector, apply_lifting, the reverse scatters and bc.set if and only if u has the value alpha (boundary value - current solution) in every constrained dof and satisfies the original, unconstrained equations in every free dof. This is what makes a Dirichlet problem, or a Newton step with alpha = -1, correct; the matrix stays symmetric if it was.", "quantifier": "for any number of processes, any forms, dof maps, block sizes, consistent conditions, alpha and current solution; for every u", "why_tests_cant": "Tests compare solutions of a few well-posed problems; the equivalence is for every system, also singular ones, and for every distribution.", "anchors": ["cpp/dolfinx/fem/assembler.h: assemble_matrix, apply_lifting, assemble_vector, set_diagonal", "cpp/dolfinx/fem/DirichletBC.h: set", "python/dolfinx/fem/assemble.py"]}
{"id": "C48", "title": "Dofs of boundary entities are located completely and consistently on all processes", "statement": "locate_dofs_topological returns, sorted and without repetition, the dofs attached to the closures of the given entities: on each process exactly those of its own entities, whatever cell the code looks at; with remote=True also those found by processes that share the dof. The owner of a dof returns it whenever any process finds it, and all processes holding a dof as owner or ghost agree about it, which is what the assembled system (C45-C47) needs.", "quantifier": "for any meshes, dof layouts, block sizes of space and index map, marked entities, number of processes and distribution of ghosts", "why_tests_cant": "A dof on the boundary of the marked part is found only by processes with a marked entity at it; whether the others learn it depends on the partition, and tests run on few processes with few partitions.", "anchors": ["cpp/dolfinx/fem/DirichletBC.cpp: find_local_entity_index, get_remote_dofs, locate_dofs_topological", "python/dolfinx/fem/bcs.py: locate_dofs_topological"]}
{"id": "C49", "title": "Searching a bounding box tree finds every collision", "statement": "compute_collisions_points returns, for each point, each leaf of the tree whose bounding box contains the point (up to the tolerance of the code) exactly once and no other leaf; in particular every mesh entity whose vertices surround the point. compute_collisions_trees returns each pair of leaves with overlapping boxes exactly once and no other pair. A process with a colliding leaf is found in the global tree. Searches read no memory outside of the tree.", "quantifier": "for any entities, coordinates, padding, number of leaves, points, any choice nth_element makes among equal keys, and any monotone rounding", "why_tests_cant": "Trees are built by recursive bisection of arrays that are rearranged in place, and a subtree that is wrongly pruned hides single entities; tests query few points of regular meshes.", "anchors": ["cpp/dolfinx/geometry/BoundingBoxTree.h: compute_bbox_of_entity, compute_bbox_of_bboxes, _build_from_leaf, _build_from_point, create_global_tree", "cpp/dolfinx/geometry/utils.h: point_in_bbox, bbox_in_bbox, _compute_collisions_point, _compute_collisions_tree, compute_collisions", "python/dolfinx/geometry.py: bb_tree, compute_collisions_points, compute_collisions_trees, create_midpoint_tree"]}
{"id": "C50", "title": "compute_closest_entity returns an entity with the smallest distance", "statement": "For each point compute_closest_entity returns an entity of the tree whose distance to the point is the smallest among all entities of the tree, or -1 if the tree is empty.", "quantifier": "for any entities, boxes that contain them, midpoints, points, tree shapes and any answer of nth_element; distances in exact arithmetic", "why_tests_cant": "Pruning by a radius that shrinks during the search loses the best entity only for particular orders of visits; the result depends on two trees and on all boxes.", "anchors": ["cpp/dolfinx/geometry/utils.h: compute_closest_entity, _compute_closest_entity, compute_squared_distance_bbox, create_midpoint_tree", "python/dolfinx/geometry.py: compute_closest_entity"]}
{"id": "C51", "title": "Every point gets one owner, and destinations mirror the owners", "statement": "determine_point_ownership gives each point the lowest rank among the processes with a cell that the point touches. A point that touches no cell goes to the process with the closest cell among those with a (padded) box around the point, the lowest rank if several are equally close, and gets -1 only if there is none. dest_owners, dest_points and dest_cells of a process list exactly the points it owns, once each, by source rank and in the order the source passed them, with a touched cell (or a closest cell) of that process.", "quantifier": "for any number of processes, points per process, bounding box collisions, candidate cells and distances", "why_tests_cant": "Four exchanges with two directions, offsets reused after rescaling and swapping, and updates through an unpacking map: an error shows only for points shared by several processes or lying outside of all cells.", "anchors": ["cpp/dolfinx/geometry/utils.h: determine_point_ownership, compute_first_colliding_cell", "python/dolfinx/geometry.py: determine_point_ownership", "python/dolfinx/fem/function.py: interpolate_nonmatching"]}
{"id": "C52", "title": "Refined cells tile the old cells and fit together", "statement": "When a mesh of triangles or tetrahedra is refined (mesh.refine, all edges or marked edges), the new cells of each old cell tile it: they lie in it, cover it, have no common inner points and none is degenerate; they use only old vertices and midpoints of marked edges. The new cells of different old cells fit together without hanging nodes: a side of a new cell that lies on an old facet belongs to as many new cells as there are old cells at that facet (two inside, one on the boundary), and every other side belongs to exactly two new cells.", "quantifier": "for all meshes, all sets of marked edges that contain the longest edge of each face with a marked edge, all orders of edges that longest edges come from, both subdivision patterns of triangles, and points over any ordered field", "why_tests_cant": "Whether two cells cut a common face alike depends on marks and longest edges of edges that only one of them has; the cases of one tetrahedron are 81 choices of longest edges times 64 sets of marks, and tests see a few.", "anchors": ["cpp/dolfinx/refinement/plaza.cpp: get_triangles, get_tetrahedra, get_simplices", "cpp/dolfinx/refinement/plaza.h: compute_refinement", "python/dolfinx/mesh.py: refine"]}
{"id": "C53", "title": "Marks for refinement are propagated completely and alike on all processes", "statement": "When edges of a mesh are marked for refinement, the propagation loop ends, and afterwards an edge is marked on a process that has it, as owner or as ghost, if and only if it has to be: it was given on some process (or all edges were requested), or it is the longest edge of a face, on some process, that has a marked edge. In 3D the longest edge of a face is the same whichever process, cell or local numbering it is seen from, and longest edges are largest in one order of all edges of the mesh; in 2D it is an edge of largest length.", "quantifier": "for any number of processes, distributions of edges and ghosts, faces, longest edges, given edges and lengths (with ties)", "why_tests_cant": "Marks travel over several faces and several processes before the loop ends; a mark lost between two processes leaves a hanging node that only particular partitions show.", "anchors": ["cpp/dolfinx/refinement/plaza.h: compute_refinement_data, face_long_edge", "cpp/dolfinx/refinement/plaza.cpp: enforce_rules", "cpp/dolfinx/refinement/utils.cpp: update_logical_edgefunction"]}
{"id": "C54", "title": "Vertices of a refined mesh are numbered alike on all processes and have the right positions", "statement": "When a mesh is refined, old vertices and middles of marked edges get the global numbers 0, 1, ... without gaps and repetitions. Every process uses the same number for a vertex or marked edge that it has, as owner or as ghost; a marked edge has exactly one new vertex, other edges none. The coordinates that processes pass on, put together by rank, have at each number the position of the old vertex or the middle of the edge.", "quantifier": "for any number of processes, distributions of vertices, edges and ghosts, marks (equal on all processes), and meshes of straight cells", "why_tests_cant": "Numbers come from two scans, neighbour exchanges and a sorted list of pairs; a wrong offset for ghosts shows only in parallel and moves vertices of some cells to other places.", "anchors": ["cpp/dolfinx/refinement/utils.h: create_new_vertices, create_new_geometry", "cpp/dolfinx/refinement/utils.cpp: adjust_indices", "cpp/dolfinx/mesh/utils.h: compute_midpoints, entities_to_geometry"]}
{"id": "C55", "title": "Refining a distributed mesh gives a conforming mesh", "statement": "mesh.refine of a mesh of triangles or tetrahedra ends. The arrays it computes on all processes (cells by new vertex numbers, parent cells, parent facets, coordinates) describe one mesh: its vertices are the old ones and the middles of exactly the edges that must be split, numbered without gaps and repetitions; on each process the new cells of each owned cell tile it; over all processes each side of a new cell inside of an old facet belongs to as many new cells as that facet to old ones, and each other side to two new cells, so that there are no hanging nodes. The parent of a new cell is the cell it lies in, and the parent facet of a side is the one facet it lies on, or -1 if there is none.", "quantifier": "for any number of processes and distribution of cells, vertices, edges and ghosts, any requested edges (or all), any edge lengths (with ties) that agree across processes, and any local numberings", "why_tests_cant": "Marks, vertex numbers and cells come from different loops and exchanges; that the cells of different processes fit together depends on all of them at once, and tests see a few meshes and partitions.", "anchors": ["cpp/dolfinx/refinement/plaza.h: compute_refinement_data, compute_refinement, compute_parent_facets, face_long_edge", "cpp/dolfinx/refinement/plaza.cpp: get_simplices, enforce_rules", "cpp/dolfinx/refinement/utils.h: create_new_vertices, create_new_geometry", "python/dolfinx/mesh.py: refine"]}
{"id": "C56", "title": "Tags are transferred to the refined mesh", "statement": "transfer_meshtag gives each new cell the value of the old cell it lies in, and no value to children of untagged cells; for facets, each side of a new cell that lies on a tagged old facet gets the value of that facet, and no other side gets a value. The indices of the new tags are sorted and without repetition, as MeshTags wants them. Meshes with ghost cells and tags of other dimensions are rejected.", "quantifier": "for any mesh of triangles or tetrahedra refined as in C55, any tags, any order of the new cells, and any numbering of the new facets", "why_tests_cant": "Values travel over parent arrays, reordered cells and two connectivities; a value at a wrong facet shows only for particular combinations of local facet numbers.", "anchors": ["cpp/dolfinx/refinement/utils.cpp: transfer_facet_meshtag, transfer_cell_meshtag", "python/dolfinx/mesh.py: transfer_meshtag"]}
{"id": "C57", "title": "Refining a mesh of intervals divides exactly the requested cells", "statement": "mesh.refine of a mesh of intervals on any number of processes divides exactly the cells that some process requested, as owner or as ghost (or all cells), each at one new vertex in its middle, and keeps the others as they are. The new cells of a cell cover it from one end to the other; each old vertex belongs to as many cells as before and each new vertex to two. Parents name the cell that was divided.", "quantifier": "for any number of processes, distribution of cells, vertices and ghosts, and requested cells; also for intervals that meet in branching points", "why_tests_cant": "Requests for ghosts must reach the owner, which alone divides the cell; serial tests do not see this.", "anchors": ["cpp/dolfinx/refinement/interval.h: compute_refinement_data", "cpp/dolfinx/refinement/utils.h: create_new_vertices, create_new_geometry", "python/dolfinx/mesh.py: refine"]}
{"id": "C58", "title": "Uniform refinement divides all cells into cells that tile them and fit together", "statement": "mesh.uniform_refine divides each triangle or quadrilateral into 4 and each tetrahedron, prism, pyramid or hexahedron into 8 (pyramid: 5 and 4 tetrahedra) cells. The new cells tile the old ones. A new side on an old facet belongs to as many new cells as the facet to old ones, each other side to two, so that meshes of mixed type on any number of processes stay conforming. Vertices are the old ones and one in the middle of each edge, each quadrilateral and each hexahedron; they have one number on all processes, and the coordinates at this number are the mean of the vertices. Wrong dimensions, missing entities and pyramids without tetrahedra among the types are reported as errors.", "quantifier": "for any number of processes, distribution, mixture of cell types, vertex coordinates and cells of the mesh", "why_tests_cant": "Tests count new cells and check the volume for a few meshes; a wrong entry in a table gives overlapping or turned cells that only some neighbours reveal, and a wrong number of a ghost entity shows only for some partitions.", "anchors": ["cpp/dolfinx/refinement/uniform.cpp: uniform_refine", "python/dolfinx/mesh.py: uniform_refine"]}
{"id": "C59", "title": "Integrals visit each entity of their domain exactly once over all processes", "statement": "The entities a form integrates over, put together from all processes, are exactly: for dx all cells, for ds the facets with one cell, for dS the facets with two cells, for vertex and ridge integrals all vertices and ridges; with a tag, those of them with the tag. Each appears once, on its owner, with the cell (for dS both cells) and the number of the entity in it. exterior_facet_indices gives the owned facets with one cell on the whole mesh. For dS a process reports an error exactly if it owns a facet (with the tag) whose second cell it does not have; missing connectivities are reported as errors.", "quantifier": "for any number of processes, any mesh, distribution, ghosts and tags, with or without repeated default and tagged domains", "why_tests_cant": "Whether a facet is on the boundary depends on cells of other processes; a wrong treatment of interprocess facets counts facets twice or not at all, only for some partitions.", "anchors": ["cpp/dolfinx/mesh/utils.cpp: exterior_facet_indices", "cpp/dolfinx/fem/utils.cpp: compute_integration_domains", "cpp/dolfinx/fem/utils.h: create_form_factory, get_cell_entity_pairs, get_cell_facet_pairs", "python/dolfinx/fem/forms.py: get_integration_domains"]}
{"id": "C60", "title": "The values of a functional on the processes add up to its value on the whole mesh", "statement": "For a form of rank 0, fem.form succeeds on each process, and the sum over processes of fem.assemble_scalar is the sum, over all integrals of the form and all entities of the mesh in the domain of the integral (all of the kind, or those with the tag), of the value that the kernel gives on the entity. It does not depend on the distribution of the mesh.", "quantifier": "for any form (any number of integrals of all kinds with default or tagged domains, any kernels), any mesh, number of processes, distribution and tags", "why_tests_cant": "Integrals are found by position in a map built from sorted ids; an error for repeated or missing ids needs particular combinations of measures.", "anchors": ["cpp/dolfinx/fem/utils.h: create_form_factory", "cpp/dolfinx/fem/Form.h: kernel, num_integrals, domain", "cpp/dolfinx/fem/assemble_scalar_impl.h: assemble_scalar, assemble_cells, assemble_entities, assemble_interior_facets", "python/dolfinx/fem/forms.py: form, get_integration_domains"]}
{"id": "C61", "title": "Meshes of intervals, rectangles and boxes fill them and are conforming", "statement": "mesh.create_interval, create_rectangle (triangles with all kinds of diagonals, quadrilaterals) and create_box (tetrahedra, hexahedra, prisms) make vertices and cells that, put together from all processes, are a conforming mesh of the interval, rectangle or box: cells lie in it, cover it, have no inner points in common and are not degenerate; a facet in a side of the box belongs to one cell, any other facet to two; vertices are all different and used. There are (nx + 1)(ny + 1)(nz + 1) vertices (nx * ny more for crossed diagonals) and 1, 2, 4 or 6 cells per square or cuboid. No cells in a direction, points in the wrong order and other cell types are rejected on all processes.", "quantifier": "for any number of cells in each direction, corners, diagonals, cell type and number of processes", "why_tests_cant": "Tests check numbers of cells and volumes of a few meshes; a wrong vertex in one of the patterns or for alternating diagonals gives overlaps that cancel or hanging sides which show only in some solutions.", "anchors": ["cpp/dolfinx/mesh/generation.h: create_interval, create_rectangle, create_box, create_geom, build_tri, build_quad, build_tet, build_hex, build_prism", "python/dolfinx/mesh.py: create_interval, create_rectangle, create_box"]}
{"id": "C62", "title": "A sub-mesh consists of exactly the listed entities", "statement": "mesh.create_submesh(mesh, dim, entities) gives, on each process, a mesh whose cells are exactly the listed entities, each once, whose vertices are exactly their vertices and whose geometry nodes are exactly their nodes. Entity map, vertex map and node map name the entity, vertex and node of the mesh. Each cell has the vertices of its entity in the same order, and its nodes have the same coordinates and original indices. Cells, vertices and nodes on different processes have the same global number exactly if they had the same one in the mesh; cells keep their owners, and processes that share a cell see the same global vertices and nodes. A list containing a ghost that its owner does not list is rejected, all others are accepted (except facets of prisms and pyramids).", "quantifier": "for any number of processes, mesh, distribution, ghosts, dimension and lists of entities (in any order, with repetitions)", "why_tests_cant": "Ownership of vertices changes in the sub-mesh when the old owner has no listed entity at it, which depends on the partition and on the lists of all processes together.", "anchors": ["cpp/dolfinx/mesh/utils.h: create_submesh, create_subgeometry, entities_to_geometry", "cpp/dolfinx/mesh/Topology.cpp: create_subtopology", "cpp/dolfinx/mesh/utils.cpp: compute_incident_entities", "cpp/dolfinx/common/IndexMap.cpp: create_sub_index_map", "python/dolfinx/mesh.py: create_submesh"]}
{"id": "C63", "title": "Tags are transferred to a sub-mesh", "statement": "mesh.transfer_meshtags_to_submesh tags an entity of the sub-mesh exactly if the entity of the mesh with the same vertices is tagged, and with the same value. Indices of the result are sorted and without repetition. Tags of higher dimension than the sub-mesh are rejected.", "quantifier": "for any mesh, sub-mesh of cells or of entities of lower dimension, tags of any lower or equal dimension and any values", "why_tests_cant": "The entity is found by its vertices over cells of the sub-mesh; an error needs entities with particular neighbours or values.", "anchors": ["cpp/dolfinx/mesh/utils.h: transfer_meshtags_to_submesh", "python/dolfinx/mesh.py: transfer_meshtags_to_submesh"]}
{"id": "C64", "title": "Cells keep their shape when written to and read from files in VTK's order", "statement": "perm_vtk gives, for each cell type and number of nodes that it accepts, a permutation p such that the node that DOLFINx lists at place i sits where VTK puts the node at place p[i]. So cells written to VTK, XDMF and VTKHDF files have each node at the position where VTK expects it, cells read from XDMF and VTKHDF files have it where DOLFINx expects it, and reading what was written gives the same cells.", "quantifier": "for points, intervals, triangles, tetrahedra, quadrilaterals and hexahedra of any degree, hexahedra with 20 nodes, prisms with 6, 15 and 18 nodes, pyramids with 5, 13 and 14 nodes; any number of cells", "why_tests_cant": "The order inside of triangles and tetrahedra is recursive and computed by removing entries at running positions; tests compare single cells of low degree, and a swapped pair of nodes only bends the picture.", "anchors": ["cpp/dolfinx/io/cells.cpp: perm_vtk, vtk_triangle, vtk_triangle_remainders, vtk_tetrahedron, vtk_tetrahedron_remainders, vtk_quadrilateral, vtk_hexahedron, vtk_wedge, vtk_pyramid, cell_degree, transpose, apply_permutation", "cpp/dolfinx/io/vtk_utils.cpp: extract_vtk_connectivity", "cpp/dolfinx/io/xdmf_mesh.cpp: read_topology_data"]}
{"id": "C65", "title": "Cells keep their shape when read from Gmsh", "statement": "perm_gmsh gives, for each cell type and number of nodes, a permutation p such that the node that DOLFINx lists at place i sits where Gmsh puts the node at place p[i]; cells read from a Gmsh model have each node at its position. Numbers of nodes without a table are rejected.", "quantifier": "for all supported cells: points, intervals of any degree, triangles, tetrahedra and quadrilaterals up to degree 3, hexahedra with 8 and 27, prisms with 6, 15 and 18, pyramids with 5, 13 and 14 nodes; any number of cells", "why_tests_cant": "A wrong entry for one node of a high-order cell turns or folds single cells and goes unnoticed in meshes with straight sides.", "anchors": ["cpp/dolfinx/io/cells.cpp: perm_gmsh, gmsh_triangle, gmsh_tetrahedron, gmsh_hexahedron, gmsh_quadrilateral, gmsh_prism, gmsh_pyramid, transpose", "python/dolfinx/io/gmsh.py: cell_perm_array, model_to_mesh"]}
{"id": "C66", "title": "Meshes are the same after they are written to and read from VTKHDF files", "statement": "io.vtkhdf.write_mesh writes a file that describes each owned cell of a mesh exactly once, with its VTK type, its nodes (global numbers) in VTK's order and the offsets that belong to them, and with the coordinates of node g in row g of the points. io.vtkhdf.read_mesh hands every cell and point of a file to exactly one process, with nodes in DOLFINx' order, sorted by cell type and degree. A mesh that is written by P processes and read by Q processes has the same cells with the same nodes and the same coordinates.", "quantifier": "for any number of writing and reading processes, any distribution, any mix of cell types and degrees; any file with cells of the supported types", "why_tests_cant": "Positions in the file are sums over processes and types; a mistake shows only for certain mixes of types, ghosts and empty processes, and the reading side is run with another number of processes than the writing side.", "anchors": ["cpp/dolfinx/io/VTKHDF.h: write_mesh, read_mesh", "cpp/dolfinx/io/cells.h: vtk_to_dolfinx", "cpp/dolfinx/io/cells.cpp: get_vtk_cell_type, cell_degree", "python/dolfinx/io/vtkhdf.py: read_mesh, write_mesh"]}
{"id": "C67", "title": "Every process gets the cells assigned to it and, with ghosts, all their neighbours", "statement": "create_mesh with a partitioner made by create_cell_partitioner: each cell is owned by the process that the graph partitioner assigned it to and by no other. With GhostMode.none a process has only its own cells. With GhostMode.shared_facet it has, in addition, exactly the cells that have a facet in common with one of its own cells, each once, after its own cells, and it knows their owners. Nodes and original indices come along unchanged.", "quantifier": "for any number of processes (some without cells), any initial distribution, any mix of cell types, any assignment of cells to processes, any order of hash sets and messages; at most max_facet_to_cell_links cells at a facet", "why_tests_cant": "Integrals over interior facets are silently wrong if one neighbour is missing; whether it is depends on the partition, which the tests do not choose.", "anchors": ["cpp/dolfinx/graph/partitioners.cpp: compute_destination_ranks, scotch::partitioner, parmetis::partitioner, kahip::partitioner", "cpp/dolfinx/mesh/utils.cpp: create_cell_partitioner, extract_topology", "cpp/dolfinx/mesh/utils.h: create_mesh", "cpp/dolfinx/graph/partition.cpp: distribute", "cpp/dolfinx/mesh/graphbuild.cpp: build_dual_graph", "python/dolfinx/mesh.py: create_mesh, create_cell_partitioner"]}
{"id": "C68", "title": "Sub-spaces share out the degrees of freedom of a space as its element says", "statement": "V.sub(i).sub(j)\u2026 of a function space with a mixed or blocked element, nested to any depth, has on each cell exactly the degrees of freedom of V that belong to this sub-element, in the order of the sub-element, and they are degrees of freedom of V (a view). On each cell, each degree of freedom of V belongs to exactly one of V.sub(0), V.sub(1), \u2026. An index that is too large is an error.", "quantifier": "for any nesting of mixed and blocked elements with any entity dofs and block sizes, any dofmap, number of cells and path of components", "why_tests_cant": "Offsets and strides of nested sub-elements are composed from layouts of several levels; a wrong one picks dofs of another component and only shows in the solution of a coupled problem.", "anchors": ["cpp/dolfinx/fem/ElementDofLayout.cpp: sub_view, sub_layout", "cpp/dolfinx/fem/DofMap.cpp: extract_sub_dofmap", "cpp/dolfinx/fem/FunctionSpace.h: sub", "cpp/dolfinx/fem/utils.h: create_element_dof_layout", "cpp/dolfinx/fem/FiniteElement.cpp: FiniteElement", "python/dolfinx/fem/function.py: FunctionSpace.sub"]}
{"id": "C69", "title": "A collapsed sub-space is a space of its own with the same degrees of freedom", "statement": "V.sub(i).sub(j)\u2026.collapse() gives a function space W and a map from its dofs to dofs of V. On every cell the map takes the dofs of W to the dofs of the sub-space in the same order; every local dof of W is a dof of some cell and has an entry in the map. Two local dofs of W, on the same or on different processes, are the same global dof exactly if they are the same dof of V, and they have the same owner as in V. A Function collapsed this way has on each cell the values of the sub-function.", "quantifier": "for any nesting of mixed and blocked elements, any mesh and distribution over processes, any sub-space, any values", "why_tests_cant": "The new numbering is built anew on all processes; whether it fits the old one depends on the orientation of shared edges, on ghosts and on the distribution.", "anchors": ["cpp/dolfinx/fem/DofMap.cpp: collapse, build_collapsed_dofmap", "cpp/dolfinx/fem/FunctionSpace.h: collapse", "cpp/dolfinx/fem/Function.h: collapse", "cpp/dolfinx/fem/utils.cpp: create_dofmap", "cpp/dolfinx/fem/dofmapbuilder.cpp: build_dofmap_data", "python/dolfinx/fem/function.py: FunctionSpace.collapse, Function.collapse"]}
{"id": "C70", "title": "Every cell of a mesh has the coordinates that were given for its nodes", "statement": "After create_mesh, for each cell (owned or ghost) of each process and each of its nodes, mesh.geometry.x[mesh.geometry.dofmap[c, i]] are the coordinates that were passed for the input node at this place (padded with zeros to three numbers), and input_global_indices gives the number of this input node. Each process has each of its input nodes once. Points of the geometry on any two processes have the same global number exactly if they are the same input node. Permutations of edge and face nodes are refused for meshes with several cell types.", "quantifier": "for any number of processes, any distribution of cells and of coordinates (also on a part of the processes), any cell types and degree of the coordinate element, any reordering", "why_tests_cant": "The geometry has a numbering of its own that is matched to the input through cells only; the match fails for single nodes when an edge is seen reversed or when a node is reached through a ghost.", "anchors": ["cpp/dolfinx/mesh/Geometry.h: create_geometry", "cpp/dolfinx/mesh/utils.h: create_mesh", "cpp/dolfinx/graph/partition.cpp: compute_local_to_global, compute_local_to_local", "cpp/dolfinx/common/MPI.h: distribute_data", "cpp/dolfinx/fem/dofmapbuilder.cpp: build_dofmap_data", "python/dolfinx/mesh.py: create_mesh, Geometry"]}
{"id": "C71", "title": "The transpose of a dofmap lists every place of every dof", "statement": "transpose_dofmap(dofmap, num_cells) gives for each dof up to the largest one exactly the positions c * width + i of the first num_cells rows at which it stands, in increasing order, each once. Adding up cell values dof by dof with it gives the same sums as adding them cell by cell. A process without cells gets an empty list.", "quantifier": "for any dofmap and any number of cells up to its number of rows, any cell values", "why_tests_cant": "Offsets, cursors and the largest dof depend on the dofmap as a whole; tests look at single dofmaps with cells.", "anchors": ["cpp/dolfinx/fem/DofMap.cpp: transpose_dofmap", "cpp/dolfinx/fem/DofMap.h: transpose_dofmap", "python/dolfinx/fem/__init__.py: transpose_dofmap"]}
{"id": "C72", "title": "Entities are located exactly where the marker says", "statement": "mesh.locate_entities(mesh, dim, marker) gives on each process, in increasing order, exactly the local entities (owned and ghosts) all of whose vertices are at marked points. mesh.locate_entities_boundary gives exactly the entities with this property in the closure of a facet that the process owns and that belongs to one cell only, over all processes. Together the processes find every entity of the boundary with marked vertices and nothing else; facets are found once, by their owner. Used with fem.locate_dofs_topological, the owner of a dof finds it exactly if it is on such an entity, and no process finds another dof. Markers of the wrong length are refused.", "quantifier": "for any mesh, coordinates, distribution over processes and any pointwise marker; locate_entities for any cell types", "why_tests_cant": "An entity can be on the boundary on one process and only known through its vertices on another; which process owns what depends on the partition.", "anchors": ["cpp/dolfinx/mesh/utils.h: locate_entities, locate_entities_boundary, compute_vertex_coords, compute_vertex_coords_boundary", "cpp/dolfinx/mesh/utils.cpp: exterior_facet_indices", "cpp/dolfinx/fem/DirichletBC.cpp: locate_dofs_topological", "python/dolfinx/mesh.py: locate_entities, locate_entities_boundary"]}
{"id": "C73", "title": "Values given for entities by input nodes arrive at these entities on all processes", "statement": "io.distribute_entity_data(mesh, dim, entities, values), where entities are rows of node numbers of the input of create_mesh, gives on each process exactly those entities of all processes' arguments whose vertices are all vertices of cells of this process, each as often as it was given, with its value, as local vertices. mesh.meshtags_from_entities with the result (as read_meshtags and gmsh.model_to_mesh do) tags on each process exactly those of its entities, owned and ghosts, that were given on some process, with the smallest value given; so an entity has the same tag on all processes.", "quantifier": "for any number of processes, any mesh and cell type with straight or curved cells, any distribution of entities over processes, entities given several times, in any order of nodes", "why_tests_cant": "Entities travel through post offices chosen by node number to every process that might have them; an entity is lost only for certain combinations of numbers, processes and neighbours.", "anchors": ["cpp/dolfinx/io/utils.h: distribute_entity_data", "cpp/dolfinx/mesh/MeshTags.h: create_meshtags", "cpp/dolfinx/common/MPI.h: index_owner", "cpp/dolfinx/io/XDMFFile.cpp: read_meshtags", "python/dolfinx/io/utils.py: distribute_entity_data", "python/dolfinx/io/gmsh.py: model_to_mesh"]}
{"id": "C74", "title": "Meshes and mesh tags survive XDMF files", "statement": "A mesh written by XDMFFile.write_mesh on any number of processes has in the file the owned cells of all processes, with their nodes in VTK's order; XDMFFile.read_topology_data and read_geometry_data on any number of processes together give the same cells, of the same type and degree, with the same nodes in the same order, and the same coordinates (two numbers in the plane and on the line, three in space). Tags written by write_meshtags and read by read_meshtags on the mesh that was read are at the same entities: on every process an entity, owned or ghost, has a tag exactly if the entity with the same vertex nodes had this tag where it was owned.", "quantifier": "for all types and degrees of cells that XDMF files can hold, any numbers of processes for writing and for reading, any partition, tags on entities of any dimension; HDF5 encoding", "why_tests_cant": "Tests write and read on the same processes; numbers of nodes, of entities and their owners are all different after reading with another partition.", "anchors": ["cpp/dolfinx/io/xdmf_mesh.cpp: add_topology_data, add_geometry_data, add_mesh, read_topology_data, read_geometry_data", "cpp/dolfinx/io/xdmf_mesh.h: add_meshtags", "cpp/dolfinx/io/xdmf_utils.h: add_data_item, get_dataset", "cpp/dolfinx/io/xdmf_utils.cpp: get_cell_type, vtk_cell_type_str", "cpp/dolfinx/io/XDMFFile.cpp: read_meshtags, write_meshtags", "python/dolfinx/io/utils.py: XDMFFile"]}
{"id": "C75", "title": "Kernels get the coefficient values of their own entity", "statement": "When a form is assembled, the kernel of each integral gets, for each of its cells, facets, ridges or vertices and for each coefficient that the integral uses, the expansion coefficients (transformed to the reference element) of this coefficient on the cell of its own mesh that is this cell or facet: both sides of an interior facet in turn, at the offsets for which the kernel was compiled. The mesh of the coefficient can be the mesh of the form, a sub-mesh of it, a mesh of which it is a sub-mesh, or, in facet integrals, a mesh of facets. Values of cells that are not in the mesh of the coefficient are zero, as are those of unused coefficients. Arguments are taken on the cells of their meshes in the same way, with -1 for cells that are not there. Expressions get coefficients in the same way for their list of entities. Constants are passed one after another in full.", "quantifier": "for any form and expression, any number of coefficients with any block size on any meshes of the kinds above, any entity maps, any integration domains; meshes of one cell type", "why_tests_cant": "The offsets, the sides, the numbering of the sub-mesh and the direction of the map have to fit together; a test shows this for single combinations of meshes.", "anchors": ["cpp/dolfinx/fem/pack.h: pack_coefficients, allocate_coefficient_storage, extract_coefficient_cells_from_entities, pack_constants", "cpp/dolfinx/fem/Form.h: Form, domain_arg, domain_coeff, active_coeffs, coefficient_offsets", "cpp/dolfinx/fem/Expression.h: coefficient_offsets", "cpp/dolfinx/mesh/EntityMap.cpp: EntityMap::sub_topology_to_topology", "cpp/dolfinx/fem/assemble_scalar_impl.h: assemble_cells, assemble_interior_facets", "python/dolfinx/fem/assemble.py: pack_coefficients, pack_constants"]}
{"id": "C76", "title": "Interpolation gives the dofs of the function that is interpolated", "statement": "u.interpolate(f, cells) sets the dofs of u on the cells to those of f and leaves all other dofs as they were. If f is a callable, it is called with the interpolation points of all cells as columns, and the dof of each cell is the dof functional of the element (pull back, interpolation operator, transformation to the cell's orientation) applied to the values that f returned for the points of this cell, component by component; values of another shape are refused. The same holds for an Expression, whose values come on the cells of its own mesh. If f is a Function of the same element on the same mesh, dofs are copied, also between spaces with different block sizes of the dofmap. If it is a Function of another element, or on a sub-mesh or parent mesh, dofs are those of the values of f at the interpolation points of the element of u. Dofs shared by cells have the value of the last of these cells, so if the cells agree, all of them have their values.", "quantifier": "for any elements except mixed ones (blocked, vector-valued, symmetric matrices, any map of basis functions), any list of cells, values and coefficients; meshes of one cell type", "why_tests_cant": "There are six different routines by kind of element, each with its own loops over blocks, components and points; a test uses single combinations of elements and functions that many wrong orders reproduce.", "anchors": ["cpp/dolfinx/fem/interpolate.h: interpolate, interpolation_coords, interpolation_apply, point_evaluation, identity_mapped_evaluation, piola_mapped_evaluation, interpolate_same_map, interpolate_nonmatching_maps", "cpp/dolfinx/fem/Function.h: Function::interpolate", "cpp/dolfinx/fem/FiniteElement.cpp: FiniteElement::create_interpolation_operator", "python/dolfinx/fem/function.py: Function.interpolate"]}
{"id": "C77", "title": "Evaluation at points gives the values of the function", "statement": "u.eval(x, cells) gives, for the n-th point and each component, the sum over the basis functions of the n-th cell of coefficient of u times the value of this component of the basis function at the point; both triangles of a symmetric matrix are filled; points with a negative cell have zeros. A function interpolated into an element of point evaluations has at the interpolation points of each cell the values that were interpolated, if these agree on common dofs.", "quantifier": "for any elements except mixed ones, any points and cells (any order, repeated, negative), any coefficients; basis functions at the points are given", "why_tests_cant": "Blocks, components and the triangle of a matrix are placed by different formulas; errors show only for certain shapes and orders.", "anchors": ["cpp/dolfinx/fem/Function.h: Function::eval", "python/dolfinx/fem/function.py: Function.eval"]}
{"id": "C78", "title": "Interpolation between non-matching meshes takes the values of the other function", "statement": "With data = create_interpolation_data(V1, mesh0-function's mesh, cells), u1.interpolate_nonmatching(u0, cells, data) sets on every process the dofs of u1 on the cells to those of the values of u0 at the interpolation points: the value in the first cell of mesh 0 that the point touches on the lowest rank that has such a cell; for a point that touches no cell (within padding) the value in the closest cell; zero if no cell is near. Values are taken at the right point whatever rank has it, in whatever order points are exchanged. Other dofs are as before. Functions with another number of components are refused.", "quantifier": "for any number of processes, any distribution of both meshes, points, candidates and distances; any elements except mixed ones", "why_tests_cant": "Which rank evaluates which point, and in which order values come back, depends on the partition of both meshes; tests run on few processes with smooth functions, where an exchanged value is easily within tolerance.", "anchors": ["cpp/dolfinx/fem/interpolate.h: scatter_values, create_interpolation_data, interpolate", "cpp/dolfinx/geometry/utils.h: determine_point_ownership", "python/dolfinx/fem/function.py: Function.interpolate_nonmatching, create_interpolation_data"]}
{"id": "C79", "title": "Dof transformations act on the dofs of each sub-element", "statement": "The functions that assembly, packing of coefficients, interpolation and evaluation use to bring basis functions and dofs of a cell into its orientation multiply data with one row per dof by the matrix of the element: for a blocked element, the matrix of its base element on each component by itself; for a mixed element, those of its sub-elements on their own dofs, one after the other, and nothing for a sub-element that needs no transformation. The functions used for the columns of a cell matrix (from the right) multiply every row, also if it is longer than the number of dofs, by the same matrix from the right. Evaluation, interpolation between elements with different maps and interpolation_matrix transform the tabulated basis functions of the element in this way.", "quantifier": "for any Basix, blocked and mixed elements, nested in any way, any matrices of the base elements, any data of the right size, any number of columns or rows", "why_tests_cant": "Few elements need transformations, and tests combine them with blocks and mixed elements in single cases, on meshes where matrices are mostly symmetric.", "anchors": ["cpp/dolfinx/fem/FiniteElement.h: FiniteElement::dof_transformation_fn, FiniteElement::dof_transformation_right_fn", "cpp/dolfinx/fem/FiniteElement.cpp: FiniteElement::needs_dof_transformations", "cpp/dolfinx/fem/Function.h: Function::eval", "cpp/dolfinx/fem/interpolate.h: interpolate_nonmatching_maps", "cpp/dolfinx/fem/discreteoperators.h: interpolation_matrix"]}
{"id": "C80", "title": "Discrete operators give the dofs of the interpolated function, its gradient or its curl", "statement": "For spaces V0 and V1 on one mesh, the matrix interpolation_matrix(V0, V1) applied to the dofs of any function of V0 gives on owned dofs of V1 those of its interpolation in V1, the same as Function.interpolate if the cells agree on common dofs; rows of ghosts are zero. For V0 scalar Lagrange and V1 with covariant Piola map, discrete_gradient(V0, V1) applied to the dofs of a function of V0 gives the dofs of its gradient if gradients of V0 are in V1; the same holds for discrete_curl from a space with covariant to one with contravariant Piola map in three dimensions. Spaces of the wrong kind are refused. The interpolation matrix is available between any two spaces with the same number of components.", "quantifier": "for any such elements, dofmaps, numbers of cells and owned dofs, any dofs of V0; meshes of one cell type, matrices as they are after the call (without exchange between processes)", "why_tests_cant": "Cells that share dofs must contribute to a row exactly once, whatever the number of cells; tests apply the matrix to smooth functions on small meshes.", "anchors": ["cpp/dolfinx/fem/discreteoperators.h: interpolation_matrix, discrete_gradient, discrete_curl", "python/dolfinx/wrappers/dolfinx_wrappers/assemble.h: declare_discrete_operators", "python/dolfinx/fem/utils.py: interpolation_matrix, discrete_gradient, discrete_curl", "cpp/dolfinx/la/MatrixCSR.h: mat_add_values, mat_set_values"]}
{"id": "C81", "title": "Dirichlet conditions on a sub-space take the values of the collapsed space at the same dofs", "statement": "locate_dofs_topological((V.sub(i), W), dim, entities) with the collapsed space W returns two lists of the same length without repetitions: at each position are a dof of V and the dof of W at the same place of a cell, for exactly the places on closures of the marked entities, including those marked by another process only; all processes that have a dof agree about it. Applying a Dirichlet condition with a function g in W and these lists to a vector of V sets these dofs of V to the values of g at the corresponding dofs and changes no others. locate_dofs_geometrical returns, in increasing order, exactly the dofs of a space whose points satisfy the marker, and for two spaces the pairs at these points; tabulate_dof_coordinates gives for each dof its point on any of its cells. Sub-spaces, mixed elements and elements without point evaluations are refused.", "quantifier": "for any dofmaps, block sizes, closures, marked entities on each process, index maps on any number of processes; for any element of point evaluations, geometry and marker of points", "why_tests_cant": "The two lists are sorted, exchanged and made unique one by one and must stay in step for all numberings of both spaces and all distributions; a shift gives wrong boundary values without an error.", "anchors": ["cpp/dolfinx/fem/DirichletBC.cpp: locate_dofs_topological, get_remote_dofs", "cpp/dolfinx/fem/DirichletBC.h: locate_dofs_geometrical, DirichletBC::set", "cpp/dolfinx/fem/FunctionSpace.h: FunctionSpace::tabulate_dof_coordinates", "python/dolfinx/fem/bcs.py: locate_dofs_topological, locate_dofs_geometrical, dirichletbc"]}
{"id": "C82", "title": "The Newton solver returns the first iterate that meets the stopping test", "statement": "NewtonSolver.solve(u) leaves in u the iterate x_n of Newton's method started at u (matrix and residual at the current point, ghosts updated before each evaluation), where n is the first number for which the stopping test holds, or max_it if it holds for none of them; it returns (n, whether the test holds), or throws if it does not hold and error_on_nonconvergence is set. The test 'residual' is that the norm of F(x_n) is below atol, or below rtol times the initial residual; 'incremental' is that of the increment, from the second step on. A linear problem is solved in at most one step. Missing functions and unknown criteria are refused.", "quantifier": "for any residual and Jacobian functions, linear solvers, norms, tolerances, update and convergence functions of the user, any max_it", "why_tests_cant": "Tests solve a few problems to tight tolerances, where a wrong relative test or a wrong count does not show.", "anchors": ["cpp/dolfinx/nls/NewtonSolver.cpp: NewtonSolver::solve, converged, update_solution", "cpp/dolfinx/nls/NewtonSolver.h: NewtonSolver", "python/dolfinx/nls/petsc.py: NewtonSolver.solve"]}
{"id": "C83", "title": "Pulling points back to the reference cell undoes pushing them forward", "statement": "CoordinateElement.push_forward(X, nodes) returns the points where the geometry of the cell puts X. For affine cells, pull_back of these points returns X, also for cells embedded in a space of higher dimension; in general it returns the reference point that comes closest, and pushing forward the result gives the points back if the dimensions agree. For other cells, pull_back returns for each point the first iterate of Newton's method from the origin that is reached by a step shorter than tol, and throws if there is none within maxit iterations; on parallelograms and the like it is exact after at most two steps. Results do not depend on the contents of the working array, nothing behind pull_back_working_size is touched, smaller arrays are refused. compute_jacobian_determinant is det J or sqrt(det(J^T J)).", "quantifier": "for any basis functions, numbers of nodes and points, nodes of a cell whose Jacobian has full rank at the points visited, tolerances, contents of the working array", "why_tests_cant": "The working array is divided by hand into seven parts; an overlap shows for some numbers of nodes and dimensions only. Tests pull back a few points of a few cells.", "anchors": ["cpp/dolfinx/fem/CoordinateElement.h: CoordinateElement::compute_jacobian, compute_jacobian_inverse, compute_jacobian_determinant, push_forward, pull_back_affine", "cpp/dolfinx/fem/CoordinateElement.cpp: CoordinateElement::pull_back_nonaffine, pull_back_working_size", "python/dolfinx/wrappers/dolfinx_wrappers/fem.h: declare_coordinate_element", "python/dolfinx/fem/element.py: CoordinateElement.pull_back, push_forward"]}
{"id": "C84", "title": "Block vectors and matrices hold the fields one beside the other", "statement": "A block vector made for several spaces holds on every process the owned entries of all fields one after another and then their ghosts; the attribute _blocks cuts it into these parts. assign copies functions to it and back, get_local_vectors and scatter_local_vectors do the same in C++. assemble_vector, apply_lifting and set_bc for a block vector do with each field what they do with a vector of that field alone (set_bc leaves ghosts alone). assemble_matrix for an array of forms adds to block (i, j) what form a[i][j] assembles into a matrix of its own, whatever process adds it; rows of the matrix have the numbers of the entries of the vector. After it the diagonal entries of constrained dofs are diag. A missing diagonal block whose test space has a condition is refused.", "quantifier": "for any number of processes, fields, block sizes, distributions and ghosts; any element matrices and any conditions; spaces of different fields must be different objects for the claim on the diagonal", "why_tests_cant": "Three numberings (vector, sub-matrix, field alone) must agree on every process, also for ghosts; tests compare norms on few processes.", "anchors": ["python/dolfinx/la/petsc.py: assign, _assign_block_data", "python/dolfinx/fem/petsc.py: assemble_vector, assemble_matrix, apply_lifting, set_bc, assign", "cpp/dolfinx/la/petsc.cpp: create_index_sets, get_local_vectors, scatter_local_vectors", "cpp/dolfinx/la/petsc.h: Matrix::set_block_expand_fn", "cpp/dolfinx/fem/petsc.cpp: create_vector_block", "cpp/dolfinx/fem/petsc.h: create_matrix_block"]}
{"id": "C85", "title": "Conditions reach exactly the blocks that they constrain", "statement": "V.contains(W) is true exactly if W is V, a sub-space of V (of any depth), or was extracted separately as the same part of the same space; clones and collapsed spaces are new spaces. All dofs of a space contained in V are dofs of V. extract_function_spaces returns the common test space of each row (index 0) or trial space of each column (index 1) of an array of forms, None for a row or column without forms, and raises if the forms of a row (column) have different spaces, if the array is ragged or the index is wrong; for a list it returns the test spaces of linear forms. The C++ layer deduces the same spaces, and throws if one is missing. bcs_by_block(spaces, bcs) has at place i the conditions, in the given order, whose space is contained in spaces[i]; together: block j of a system gets the conditions on its own trial space and the parts of it.", "quantifier": "for any program that creates spaces, sub-spaces, clones and collapsed spaces; any arrays of forms with any entries missing; any lists of conditions", "why_tests_cant": "A condition that is lost, or applied to a wrong block, gives a solvable system with a wrong solution. Tests use two or three blocks with one or two conditions.", "anchors": ["cpp/dolfinx/fem/FunctionSpace.h: FunctionSpace::FunctionSpace, sub, contains, collapse, common_function_spaces", "cpp/dolfinx/fem/utils.h: extract_function_spaces", "python/dolfinx/fem/forms.py: extract_function_spaces", "python/dolfinx/fem/bcs.py: bcs_by_block", "python/dolfinx/fem/function.py: FunctionSpace.clone, sub"]}
{"id": "C86", "title": "The direct solver gets the assembled matrix and its factors are freed once", "statement": "superlu_dist_matrix(A) hands SuperLU_DIST, on every process, the owned rows of the assembled matrix A as scalar rows at their global place, with global column numbers: the parts of all processes together are A, every row comes from exactly one process, and the arrays have the form that the library asks for. Matrices that are not square or too large for its integers are refused. The process grid uses every process once. If the library solves the systems that it is given, solve(b, u) leaves the solution of A u = b in the owned entries of u. However set_option, set_A and solve are called, as long as factors are computed only if none are kept and used only if there are some, no factors are lost or freed twice; after set_A with DOFACT or SamePattern the next solve is with the new matrix.", "quantifier": "for any number of processes, distributions of rows and columns, block sizes and stored values; any sequence of calls", "why_tests_cant": "With block sizes above one, row pointers, columns and values are expanded by three separate loops; an error in one gives a wrong solution only on some processes or for blocks that are not square. Tests solve one or two problems.", "anchors": ["cpp/dolfinx/la/superlu_dist.cpp: col_indices, row_indices, matrix_values, create_supermatrix, SuperLUDistSolver::SuperLUDistSolver, set_option, set_A, solve", "python/dolfinx/la/superlu_dist.py: superlu_dist_matrix, SuperLUDistSolver"]}
{"id": "C87", "title": "Functions in files for visualisation stand at their own points", "statement": "VTKFile.write_function and VTXWriter.write put on each process a grid whose points are the dofs of the first point-wise function, with their coordinates, global indices and ghost marks, and cells in VTK order; XDMFFile.write_function writes one row per node (or owned cell) of the mesh, in the order of the points (cells) in the file. At each point of each cell the field of a function has the value of that function at its dof there, and at each cell the value of a piecewise constant, scalars as they are, vectors padded with zeros to three components, matrices as part of a 3x3 matrix. Sub-functions, elements without point evaluations, functions on different meshes, of different elements, or (XDMF) of another degree than the mesh are refused.", "quantifier": "for any meshes, numbers of processes, dofmaps, block sizes and values; conditions under which the code is right are stated, counterexamples show that they are needed", "why_tests_cant": "Values at wrong points make a picture that is wrong but looks like a picture. Tests check that files can be written, not what is in them.", "anchors": ["cpp/dolfinx/io/VTKFile.cpp: write_function", "cpp/dolfinx/io/vtk_utils.h: tabulate_lagrange_dof_coordinates, is_cellwise, vtk_mesh_from_space", "cpp/dolfinx/io/vtk_utils.cpp: extract_vtk_connectivity", "cpp/dolfinx/io/xdmf_function.cpp: add_function", "cpp/dolfinx/io/ADIOS2Writers.h: vtx_write_data, vtx_write_mesh_from_space, VTXWriter"]}
{"id": "C88", "title": "Marking by the greatest value marks the right entities on all processes", "statement": "mark_maximum(marker, theta, comm) returns on each process, in increasing order, exactly the local entities whose value is greater than theta times each value on each process, for 0 < theta < 1; how values are distributed over processes, and that some have none, has no influence on which entities are marked. If some value is positive, entities with the greatest value are marked, so refinement goes on; a smaller theta marks more. Other values of theta are refused. (The documented criterion, at least theta times the greatest value, differs for equality.)", "quantifier": "for any number of processes, values and parameters", "why_tests_cant": "A test has one process or values that are the same on all; a maximum that is only local, or an empty process that contributes zero, shows for other distributions only.", "anchors": ["cpp/dolfinx/refinement/mark.h: mark_maximum", "python/dolfinx/wrappers/dolfinx_wrappers/refinement.h: mark_maximum"]}
{"id": "C89", "title": "Expressions evaluate to the values they stand for on each entity", "statement": "Expression.eval(mesh, entities, values) and tabulate_expression return an array of shape (entities, points, components[, dofs of the argument]) in which the part of each cell, or facet given as (cell, local facet), has the numbers that the generated kernel computes from the coefficients on that entity (on their own meshes, transformed dofs), all constants in order, the coordinates of the nodes of the cell, and the local facet with its permutation; what was in the array before has no influence. With an argument, the numbers of an entity are a matrix that gives the values of the expression when it is applied to the dofs of a function on the cell. Entities or points of a wrong dimension, arrays of a wrong shape or type, coefficients that are not set, and meshes with another coordinate element are refused.", "quantifier": "for any meshes, entities, coefficients, constants, numbers of points, value shapes, argument elements and kernels; conditions under which the code is right for arguments are stated, counterexamples show that they are needed", "why_tests_cant": "Buffers are reused from entity to entity and indexed by hand; an error shows only for several entities, facets of other cells, coefficients on other meshes, or arguments with dof transformations. Tests evaluate simple expressions on all cells.", "anchors": ["cpp/dolfinx/fem/assemble_expression_impl.h: tabulate_expression", "cpp/dolfinx/fem/assembler.h: tabulate_expression", "cpp/dolfinx/fem/Expression.h: Expression", "python/dolfinx/fem/function.py: Expression.eval", "python/dolfinx/wrappers/dolfinx_wrappers/assemble.h: tabulate_expression, pack_coefficients"]}
{"id": "C90", "title": "LinearProblem.solve returns the solution of the discrete problem, each time", "statement": "fem.LinearProblem(a, L, bcs).solve() returns a function that has the prescribed value in each constrained dof and satisfies the equations of a and L in all other dofs, on all processes including ghosts, if the direct solver solves the system it is given. Earlier contents of the matrix, the vectors and the function have no influence, so solve can be called again after data have changed. It raises an exception exactly when a constrained dof is not coupled with itself by a, when sizes do not fit into the integers of the solver, or when the solver fails; the function is then as it was.", "quantifier": "for any forms, spaces, block sizes, conditions, distributions over processes, earlier contents; the solver is any function that solves systems when it returns 0; exceptions: negative codes, and dtype together with u (counterexamples)", "why_tests_cant": "The result is right only if assembly, lifting, exchange of ghosts, setting of boundary values and the conversion for the solver fit together on all processes. Tests solve a few problems on a few meshes, mostly once per object.", "anchors": ["python/dolfinx/fem/problems.py: LinearProblem, LinearProblem.solve", "python/dolfinx/la/superlu_dist.py", "cpp/dolfinx/la/superlu_dist.cpp"]}
{"id": "C91", "title": "NonlinearProblem gives SNES the residual and Jacobian of the problem with conditions, and returns what SNES finds", "statement": "The callbacks of fem.petsc.NonlinearProblem(F, u, bcs, J, P) give SNES, at each vector it asks for, the residual of the discrete problem (in constrained dofs the distance from the prescribed value, in free dofs the form F plus the effect of correcting the constrained values) and the matrices of J and P with rows and columns of the identity for constrained dofs, on all processes; earlier contents of vectors, matrices, ghosts and of u have no influence. The residual is zero exactly for vectors that have the prescribed values and satisfy F = 0 in free dofs; a Newton step solves the linearised problem and lands on the prescribed values. solve() starts from the values of u and leaves in u, ghosts included, what SNES returns.", "quantifier": "for any forms, spaces, block sizes, conditions, distributions over processes, earlier contents, and any solver program that asks for residuals and Jacobians in any order at any vectors", "why_tests_cant": "SNES evaluates at vectors that no test sees (line search, restarts); a missing ghost update or a wrong sign in the lifting still converges in many tests, more slowly or on one process only.", "anchors": ["python/dolfinx/fem/petsc.py: assemble_residual, assemble_jacobian, NonlinearProblem.solve, apply_lifting, set_bc, assign, _assemble_matrix_petsc", "cpp/dolfinx/la/petsc.h: Matrix::set_block_fn, Matrix::set_fn", "cpp/dolfinx/fem/assembler.h: assemble_matrix, set_diagonal, apply_lifting"]}
{"id": "C92", "title": "Meshes from Gmsh models have all cells, nodes and tags of the model", "statement": "model_to_mesh(model, comm, rank) gives create_mesh, on the rank that has the model, all nodes in the order of their numbers and, for each type of the greatest marked dimension, every cell exactly once with its nodes in DOLFINx' order; other ranks give nothing. It succeeds only if each of these cells is in exactly one physical group and the nodes are numbered without gaps. For each codimension with exactly one type of marked elements, the MeshTags give a local entity the smallest tag of the physical groups that have an element at its corners, and no tag if there is none. Physical groups with different names are all returned.", "quantifier": "for any Gmsh model (groups, entities, blocks of elements in any order, overlapping groups), number of processes and rank; conditions under which the code is right are stated, counterexamples show where it waits for ever or refuses", "why_tests_cant": "Gmsh returns nodes and blocks in an order that depends on the model; a node number shifted by one or a group assigned to the wrong block gives a mesh that looks plausible. Tests read a few models that have one type of cell, mostly on the rank that made them.", "anchors": ["python/dolfinx/io/gmsh.py: extract_topology_and_markers, extract_geometry, model_to_mesh, _gmsh_to_cells", "cpp/dolfinx/io/cells.cpp: perm_gmsh", "cpp/dolfinx/io/xdmf_utils.h: distribute_entity_data"]}
{"id": "C93", "title": "Size, midpoint and normal of mesh entities are those of their points", "statement": "mesh.h(dim, entities), compute_midpoints and cell_normals return, for each entity in the order given, the greatest distance between two of its points, the mean of its points, and a vector of length one that is orthogonal to the entity (to the edge in the plane, to the first two edges of a face) and forms a right-handed system with them. Size and midpoint do not depend on the cell through which the points were found, nor on the process. Facets of prisms and pyramids, normals of edges in space and of other entities are refused; vertices have size zero.", "quantifier": "for any mesh of one cell type, entities, dimension, coordinates that are not degenerate; counterexamples show that sizes count nodes that are no vertices, and that neighbouring processes may have opposite normals", "why_tests_cant": "Tests compare numbers for a few unit meshes, of degree one, on one process, where the first cell of a facet is always the same.", "anchors": ["cpp/dolfinx/mesh/utils.h: h, cell_normals, compute_midpoints, entities_to_geometry", "cpp/dolfinx/common/math.h: cross", "python/dolfinx/mesh.py: Mesh.h, compute_midpoints"]}
{"id": "C94", "title": "Plot data have each entity as one VTK cell with its nodes at their places", "statement": "plot.vtk_mesh(mesh, dim, entities) and vtk_mesh(V, entities) return one VTK cell for each entity, in the order given (all owned ones by default): the number of nodes followed by the indices of the geometry nodes, or dofs, of the entity in VTK's order, so that the node at a place of the VTK cell is the node at that place of the entity. There is one cell type for each entity, and it is a type of VTK for this shape and number of nodes. Prisms, facets of prisms and pyramids, elements other than Lagrange and cellwise constants are refused.", "quantifier": "for all shapes and degrees with at most 65536 nodes, any mesh, dof map and entities; counterexamples for pyramids of degree two and for degree one on prisms and pyramids", "why_tests_cant": "A permutation and its inverse agree for degrees one and two on most shapes, and pictures of symmetric meshes look right with either. The only test calls the function and ignores the result.", "anchors": ["python/dolfinx/plot.py: vtk_mesh, _first_order_vtk", "cpp/dolfinx/io/cells.cpp: perm_vtk, get_vtk_cell_type", "cpp/dolfinx/mesh/utils.h: entities_to_geometry"]}
{"id": "C95", "title": "compute_distance_gjk returns the shortest vector between two convex bodies", "statement": "geometry.compute_distance_gjk(p, q) returns the difference of a point of the convex hull of p and a point of the convex hull of q, and no such difference is shorter, up to a tolerance; so the vector is zero up to the tolerance if the bodies have a common point, and a longer vector shows that they are apart. It either returns such a vector or raises the exception for the number of iterations. compute_distances_gjk gives this vector for each body at the position of the body, for any number of threads.", "quantifier": "for all bodies of at least one point, in exact arithmetic, if no three differences of points are in a special position (a tie); any positive function as square root; any order of the threads' writes. Counterexamples for ties, for a positive number in an array that is not initialised, for small bodies and for the limit of iterations", "why_tests_cant": "The algorithm has 4 + 11 + 15 cases of the nearest part of a simplex, with different strictness of comparisons; tests use random and regular bodies, which hardly ever meet the boundaries between cases, and compare lengths only.", "anchors": ["cpp/dolfinx/geometry/gjk.h: compute_distance_gjk, compute_distances_gjk, impl_gjk::nearest_simplex, impl_gjk::support, impl_gjk::det4", "python/dolfinx/geometry.py: compute_distance_gjk, compute_distances_gjk"]}
{"id": "C96", "title": "Points inside a cell collide with it, and cells found are near the point", "statement": "geometry.squared_distance(mesh, dim, entities, points) gives for each entity the square of the distance of the point at the same position to the convex hull of the entity's nodes, up to the tolerance of GJK. compute_colliding_cells(mesh, candidates, points) lists for each point, in the order of its candidates, every candidate cell whose hull contains the point, and only candidates with a point nearer than 1e-6. compute_first_colliding_cell returns a cell with a point nearer than the tolerance such that no candidate before it contains the point, and -1 only if no candidate contains the point.", "quantifier": "for all meshes of one cell type, entities, points and candidates, in exact arithmetic; that no containing cell is missed holds for all bodies; nearness of the cells found if there are no ties in GJK (C95). Counterexamples for the order of std::reduce and for cells that are small", "why_tests_cant": "Tests look for points at midpoints of cells of unit meshes and compare with brute force that uses the same GJK; a missed cell on a mesh of general position makes a point lost between processes, without an error.", "anchors": ["cpp/dolfinx/geometry/utils.h: shortest_vector, squared_distance, compute_first_colliding_cell, compute_colliding_cells", "python/dolfinx/geometry.py: squared_distance, compute_colliding_cells"]}
{"id": "C97", "title": "Searching points with a bounding box tree finds every cell that contains them", "statement": "With tree = bb_tree(mesh, tdim, padding, entities), compute_colliding_cells(mesh, compute_collisions_points(tree, points), points) lists for each point every cell of the tree whose nodes' convex hull contains the point, exactly as often as it is in entities (once for the default, all owned and ghost cells), and besides these only cells of the tree that have a point nearer than 1e-6.", "quantifier": "for all meshes of one cell type, entities, points, non-negative padding and results of nth_element; boxes with any monotone rounding, GJK in exact arithmetic; that listed cells are near if there are no ties (C95). Counterexamples for curved cells and for a tree of one cell", "why_tests_cant": "The box test, the tree and GJK each have a tolerance; a cell is lost if any of the three rejects it, which depends on the order of the tree and on the position of the point. Tests use points at midpoints of unit meshes.", "anchors": ["cpp/dolfinx/geometry/BoundingBoxTree.h: BoundingBoxTree, compute_bbox_of_entity", "cpp/dolfinx/geometry/utils.h: compute_collisions, compute_colliding_cells", "python/dolfinx/geometry.py: bb_tree, compute_collisions_points, compute_colliding_cells"]}
{"id": "C98", "title": "The communication graph has an edge for each pair of ranks that exchange values, with their number", "statement": "graph.comm_graph(map, root) returns on rank root a directed graph with a node for each rank, holding its numbers of owned and ghost indices, and exactly one edge from r to q whenever q has ghosts owned by r: its weight is the number of these ghosts (the number of values a forward scatter sends from r to q) and its marker is 1 if and only if r and q share memory. Edges of a rank are in increasing order of their targets, and weights of the edges into a rank add up to its ghosts. comm_graph_data lists these edges and nodes, and comm_to_json writes them as JSON text in NetworkX' adjacency format. Other ranks get an empty graph.", "quantifier": "for all index maps on any number of ranks, all assignments of ranks to memory regions, all roots; counterexamples for Python's root and for the empty graph", "why_tests_cant": "The only test calls comm_graph for one map on the default root and checks that nothing is thrown; a wrong weight or target changes no result of a computation. Ranks in different memory regions need several machines.", "anchors": ["cpp/dolfinx/graph/utils.cpp: comm_graph, comm_to_json", "cpp/dolfinx/common/IndexMap.cpp: IndexMap::weights_src, IndexMap::weights_dest, IndexMap::rank_type", "python/dolfinx/graph.py: comm_graph, comm_graph_data, comm_to_json", "python/dolfinx/wrappers/graph.cpp: comm_graph_data"]}
{"id": "C99", "title": "A timer measures the time it was running since the last start and is logged at most once", "statement": "After any sequence of calls of start, stop, resume, elapsed and flush, Timer.elapsed() and Timer.stop() return the total of the times, since creation or the last start, during which the timer was running (not between stop and resume). A named timer hands at most one timing to the logger: the time measured at the first flush of the stopped timer, else at destruction if it is still running; an unnamed one none. flush raises if and only if the timer is running. A with-block registers its duration, once. timing(task) returns the number and the sum of all timings registered for the task, and raises if there are none. A named timer that is destroyed without flush is logged.", "quantifier": "for all sequences of calls at non-decreasing times, all names, all sequences of registrations; counterexamples for a stopped timer that is destroyed and for a second with-block", "why_tests_cant": "Tests sleep and compare with lower bounds in four fixed sequences; a time counted twice or a missing registration after some sequence passes them.", "anchors": ["cpp/dolfinx/common/Timer.h: Timer", "cpp/dolfinx/common/TimeLogger.cpp: TimeLogger::register_timing, TimeLogger::timing", "python/dolfinx/common.py: Timer, timing"]}
{"id": "C100", "title": "list_timings prints a line for each timed task with reduced times", "statement": "list_timings(comm, reduction) prints on rank 0 a table with exactly one line for each task timed on any rank and exactly the columns reps, avg and tot: reps is the number of timings of the task on rank 0, avg and tot are the maximum, minimum or average over the ranks of the mean and of the total time of the task. The average is over the ranks that have timed the task.", "quantifier": "for all logs on any number of ranks, all three reductions; counterexamples for a task that is not timed on every rank", "why_tests_cant": "The only test calls list_timings on one process and checks that nothing is thrown; gathering of keys and values is not run there. Any difference between the logs of ranks needs several processes and a chosen log on each.", "anchors": ["cpp/dolfinx/common/Table.cpp: Table::set, Table::get, Table::reduce, Table::str", "cpp/dolfinx/common/TimeLogger.cpp: TimeLogger::list_timings, TimeLogger::timing_table", "python/dolfinx/common.py: list_timings"]}
{"id": "C101", "title": "Dense copies, SciPy matrices and the norm of a matrix agree with its entries", "statement": "MatrixCSR.to_dense() returns an array with a row for each local row (owned and ghost) and a column for each global column of the matrix, for any block sizes, with the stored value at its place and zero elsewhere. to_scipy() returns a matrix in a format SciPy accepts, with the owned rows (all local rows if ghosted) and all local columns, holding the stored values. squared_norm() is, on all processes, the sum of the squared moduli of all entries in owned rows; after scatter_reverse it is the squared Frobenius norm of the global matrix, in which contributions of ghost rows are added up. All matrices made from finalised sparsity patterns are covered.", "quantifier": "for all finalised sparsity patterns on any number of ranks, all block sizes, all values (real or complex)", "why_tests_cant": "Tests compare norms and dense copies of few assembled matrices; a column at a wrong global place in some partition, or a ghost row counted twice, shows only for special distributions.", "anchors": ["cpp/dolfinx/la/MatrixCSR.h: MatrixCSR::to_dense, MatrixCSR::squared_norm", "python/dolfinx/la/__init__.py: MatrixCSR.to_scipy, MatrixCSR.to_dense, MatrixCSR.squared_norm"]}
{"id": "C102", "title": "Just-in-time compilation on several ranks succeeds or fails on all of them together, rank 0 first", "statement": "A compiler function wrapped by mpi_jit_decorator, called on all ranks of a communicator of more than one rank, calls the compiler at most once per rank, and on other ranks only after the call on rank 0 has returned a value. However calls are interleaved and whatever they return or raise, the calls on all ranks come to an end: either every rank returns what its own compiler call returned; or rank 0's compiler call raised, no other rank compiles, and all ranks raise RuntimeError; or that of another rank raised, and all ranks raise RuntimeError.", "quantifier": "for all numbers of ranks, all interleavings of steps of ranks and all outcomes of calls, which may depend on the rank and on all calls begun or ended before; counterexample for KeyboardInterrupt and SystemExit", "why_tests_cant": "The result depends on timing of processes and on failures of a compiler or a file system on some ranks; tests only compile forms that compile. A deadlock in one interleaving is not seen in a run.", "anchors": ["python/dolfinx/jit.py: mpi_jit_decorator, ffcx_jit"]}
{"id": "C103", "title": "Interpolating the geometry of a mesh keeps its points", "statement": "interpolate_geometry(mesh, cmap) returns a mesh with the same topology and geometric dimension whose geometry has the coordinate element cmap: node j of each cell lies where the old geometry maps the reference point of node j; the new map of each cell equals the old one at these points, and everywhere if the old coordinate functions belong to the new element (raising the degree does not change the mesh). Nodes that several processes share get one global number (input_global_indices) and the same coordinates on all of them. A coordinate element for another cell shape raises an exception.", "quantifier": "for all meshes of one cell type on any number of processes whose cells agree on the points they share, all coordinate elements (given by nodes and basis functions) and all dofmaps of the space made for them", "why_tests_cant": "Tests raise and lower the degree on a square and compare areas and sorted lists of coordinates; a node attached to a wrong place of a cell changes the map of some cells only, in special partitions and reorderings.", "anchors": ["cpp/dolfinx/fem/utils.h: interpolate_geometry", "cpp/dolfinx/fem/FunctionSpace.h: FunctionSpace::tabulate_dof_coordinates", "cpp/dolfinx/mesh/Geometry.h: Geometry", "python/dolfinx/fem/utils.py: interpolate_geometry"]}
{"id": "C104", "title": "Communicators held by objects are freed exactly once, and never those of the caller", "statement": "Objects of dolfinx::MPI::Comm, which meshes, index maps, scatterers, matrices, solvers and files hold, may be constructed, copied, moved, assigned and destroyed in any order: no call of MPI is made with a communicator that does not exist; no two objects hold the same communicator; a communicator of the calling program is never freed by an object unless it was handed over (duplicate = false), so that the program may free its own while objects made from it live on; when all objects are destroyed, each communicator they have made has been freed exactly once. A copy holds a new communicator of the same group, a moved-to object that of the other one.", "quantifier": "for all programs: all sequences of constructing, copying, moving, assigning (also to itself) and destroying objects, and of making and freeing own communicators", "why_tests_cant": "A communicator that is leaked or freed twice makes no test fail unless the limit of the MPI library is reached or the handle is used again; which objects are copied or moved depends on the program.", "anchors": ["cpp/dolfinx/common/MPI.h: MPI::Comm", "cpp/dolfinx/common/MPI.cpp: MPI::Comm::Comm, MPI::Comm::~Comm, MPI::Comm::operator="]}
{"id": "C105", "title": "A linear problem with PETSc hands its solver the right system and returns its solution", "statement": "LinearProblem.solve of dolfinx.fem.petsc (one form) passes to the KSP solver the matrix of the bilinear form in which rows and columns of constrained dofs are those of the identity, the matrix of the preconditioner form treated alike (the matrix itself if none is given), and the right-hand side with the prescribed value in each constrained dof and, in each free dof, the linear form less the contribution of the prescribed values, whatever matrices, vectors and u held before. If the solver solves that system, all processes hold in u, for owned and ghost dofs, one vector that has the prescribed values and satisfies the equations of all free dofs; if the solver raises, u is unchanged. Options passed to the constructor configure this solver only: it sees them in place of what the options database holds under its prefix, other options are not changed, and afterwards the database is as it was. An empty prefix is refused.", "quantifier": "for all problems with one bilinear and one linear form on any number of processes, all conditions, all solvers (arbitrary functions of the system), all contents of the objects before, all option databases and prefixes", "why_tests_cant": "Tests solve a few problems with LU on at most three processes; they cannot cover all conditions on shared dofs, repeated solves with stale contents, or options that are set elsewhere in the program under the same prefix.", "anchors": ["python/dolfinx/fem/petsc.py: LinearProblem.__init__, LinearProblem.solve, apply_lifting, assign", "python/dolfinx/la/petsc.py: _zero_vector, _ghost_update, assign"]}
{"id": "C106", "title": "A linear problem with several fields hands its solver the right block system and returns its solution", "statement": "LinearProblem.solve of dolfinx.fem.petsc for an array of bilinear forms, with blocks that may be None, and a sequence of linear forms (kind nest or mpi) passes to the KSP solver the block matrix in which rows and columns of constrained dofs of every field are those of the identity, the block matrix of the preconditioner forms treated alike (the matrix itself if none are given), and the right-hand side with the prescribed value in each constrained dof and, in each free dof of a field, the linear form of that field less what the prescribed values of all fields contribute through all blocks of the row, whatever matrices, vectors and functions held before. If the solver solves that system, all processes hold in each function, for owned and ghost dofs, one vector per field; together they have the prescribed values and satisfy the equations of all free dofs of all fields. If the solver raises, no function changes. A field with conditions whose diagonal block is None is refused before any function is changed.", "quantifier": "for all numbers of fields, block sizes, arrays of forms with a form in each row and column, processes, conditions, solvers (arbitrary functions of the system) and contents of the objects before", "why_tests_cant": "Tests solve a Stokes problem and a few artificial systems and compare norms of nest and block versions; a column of a prescribed dof that is not moved to the right-hand side of another field's rows shows only for inhomogeneous conditions on dofs coupled across processes and fields.", "anchors": ["python/dolfinx/fem/petsc.py: LinearProblem.solve, assemble_matrix, assemble_vector, apply_lifting, set_bc, assign", "python/dolfinx/fem/bcs.py: bcs_by_block"]}
{"id": "C107", "title": "A nonlinear problem with several fields gives its solver the right residuals and block Jacobians", "statement": "The callbacks of NonlinearProblem of dolfinx.fem.petsc for a sequence of residual forms and an array of Jacobian forms (blocks may be None; kind nest or mpi) raise no exception, put the point of evaluation into all functions on all processes with ghosts, and give SNES, whatever the objects held before: as residual, for each field the distance from the prescribed value in constrained dofs and, in free dofs, the form plus the effect, through all blocks of the row, of correcting wrong values in constrained dofs of all fields; as matrices the block Jacobian and the block preconditioner (the Jacobian if none is given) at that point in which rows and columns of constrained dofs of all fields are those of the identity. The residual is zero exactly for solutions; a Newton step leads to the prescribed values in one step and solves the linearised equations in free dofs. solve starts from the functions' values and leaves in the functions, on all processes with ghosts, what SNES returns.", "quantifier": "for all numbers of fields, block sizes, arrays of forms with a form in each row and column, forms that depend on all functions, processes, conditions, solvers (arbitrary programs asking for residuals and matrices), contents of the objects before", "why_tests_cant": "Tests solve few problems with two or three fields with one solver on at most three processes and compare norms of nest, block and mixed versions; stale ghosts, a missing cross term of lifting or conditions of the wrong field show only for inhomogeneous conditions at special points of evaluation.", "anchors": ["python/dolfinx/fem/petsc.py: assemble_residual, assemble_jacobian, apply_lifting, set_bc, NonlinearProblem.solve, assign"]}
{"id": "C108", "title": "Sub-functions are views of their function; copies and collapsed functions are not", "statement": "In every script that creates functions, takes sub-functions (sub, split, nested to any depth), copies, collapses, writes entries of u.x.array and interpolates, u and u.sub(i) have the same values at any time: what is written into either is seen in the other and in all other sub-functions of the same function. u.copy() has the values of u and u.sub(i).collapse() those of the sub-function at the time of the call; afterwards nothing that is written into other functions changes them, and nothing written into them changes others. Interpolation into a sub-function sets exactly its own dofs on the given cells; the dofs of sub-functions of other components keep their values. split gives all sub-functions of the first level in order if there are any, and raises an exception otherwise. Functions cannot be created on sub-spaces, and only sub-functions can be collapsed.", "quantifier": "for all scripts (any number of calls in any order), all mixed, blocked and nested elements, meshes, cells and values", "why_tests_cant": "Whether two objects share memory shows only in what later calls do to them; tests write into one sub-function and look at one other object. Overlap of the dofs of two components can be limited to special cells.", "anchors": ["python/dolfinx/fem/function.py: Function.__init__, Function.copy, Function.sub, Function.split, Function.collapse, FunctionSpace.sub", "cpp/dolfinx/fem/Function.h: Function::Function, Function::sub, Function::collapse"]}
{"id": "C109", "title": "Every step of a time series in a VTKHDF file can be read back", "statement": "After write_mesh, any sequence of calls of write_point_data or write_cell_data, each with a time and, on every process, the same number of values for each of its points or cells, returns normally and leaves a file with exactly one step per call: NSteps and the lengths of all arrays of the group Steps are the number of calls, and for each step Values has the time of the call and the rows of PointData/u or CellData/u from the offset of that step are the values of all points or cells of the mesh in the order of the file. Later calls do not change earlier steps.", "quantifier": "for all meshes (several cell types), numbers of processes, numbers of values per point, data and numbers of calls", "why_tests_cant": "Tests write two or three steps of one function on a small mesh in which each process has cells, and do not read the file back; offsets are wrong only for later steps, and empty processes, mixed kinds of data and large meshes are not tried.", "anchors": ["cpp/dolfinx/io/VTKHDF.h: VTKHDF::write_data", "python/dolfinx/io/vtkhdf.py: write_point_data, write_cell_data", "cpp/dolfinx/io/HDF5Interface.h: hdf5::write_dataset"]}
{"id": "C110", "title": "A compiled form can be given its data afterwards, in any order", "statement": "create_form makes from a form compiled without data (compile_form) and from given spaces, functions, constants and lists of entities a form in which each coefficient that the compiler has kept is the function given for that coefficient of the UFL form, each constant the one given for it, and each integral has its own kernel and the entities given for its id (all entities, for integrals without id), in whatever order the pairs of ids and entities are listed; the form is the one that form makes of the same lists. A missing coefficient or constant, a constant of another shape or a space with another element raises an exception. Entries for coefficients that the form does not have are not used. The lists keep their pairs, and calling again with the same arguments gives the same form.", "quantifier": "for all compiled forms (any subset and order of coefficients kept by the compiler), maps, lists (also one list for several kinds of integral) and meshes of one cell type", "why_tests_cant": "Tests use forms with one coefficient and one constant and lists that are sorted already; a coefficient that the compiler drops or reorders, and unsorted lists, give a form with the wrong data without any error.", "anchors": ["python/dolfinx/fem/forms.py: create_form, compile_form", "cpp/dolfinx/fem/utils.h: fem::create_form, fem::create_form_factory"]}
{"id": "C111", "title": "PETSc objects are released exactly once", "statement": "A PETSc or SLEPc object that a la::petsc::Vector, Operator, Matrix or KrylovSolver, an SLEPcEigenSolver or an nls::petsc::NewtonSolver has a pointer to can be used as long as that C++ object lives, an object to which the calling program has a reference can be used as long as the program keeps it, and an object that nobody has any more is destroyed, exactly once: whatever is created, wrapped (taking a further reference or taking over the caller's), moved, assigned, copied, set and destroyed, in any order. When all C++ objects are gone, the references left are those of the program.", "quantifier": "for all programs (lists of statements of any length) with any number of PETSc and C++ objects", "why_tests_cant": "A reference too many leaks silently and a reference too few shows only when the memory is used again; tests construct each object once, and never move, assign or set one that is in use already.", "anchors": ["cpp/dolfinx/la/petsc.cpp: Vector, Operator, Matrix, KrylovSolver (constructors, destructors, operator=, copy)", "cpp/dolfinx/la/slepc.cpp: SLEPcEigenSolver", "cpp/dolfinx/nls/NewtonSolver.cpp: NewtonSolver, ~NewtonSolver, setF, setJ, setP, solve"]}
{"id": "C112", "title": "Options of just-in-time compilation follow their order of priority, and calls do not disturb each other", "statement": "get_options gives for each key the value in the dictionary given to the call if it has the key; else the value in dolfinx_jit_options.json of the working directory, else of the user's configuration directory, both as they were at the first call that could read them, whatever becomes later of the working directory, the environment and the files; else the default; and cache_dir as a path. A file that exists and cannot be read raises an exception, and the next call tries again; a file that does not exist is no error. The dictionary returned is a copy: whatever the program does with it and with the dictionaries it has given or got before changes no option of a later call.", "quantifier": "for all defaults, files, and programs (lists of calls, assignments and changes of files, working directory and environment, of any length)", "why_tests_cant": "Tests call get_options once with one key changed; options that come from the wrong file, or a list of compiler flags that an earlier part of the program has changed, only make the compiled code slower or different, without any error.", "anchors": ["python/dolfinx/jit.py: get_options, _load_options, DOLFINX_DEFAULT_JIT_OPTIONS"]}
{"id": "C113", "title": "Distances to many bodies do not depend on the number of threads", "statement": "compute_distances_gjk returns for each body of the list, in the order of the list, the vector that compute_distance_gjk gives for it, for every number of threads (also more threads than bodies, and no bodies) and whatever the order in which the threads run. If there is no distance for a body (compute_distance_gjk throws), the caller gets that exception, for every number of threads; a number of threads less than one raises an exception.", "quantifier": "for all lists of bodies, numbers of threads and interleavings of the threads", "why_tests_cant": "A test runs one interleaving for a few numbers of threads, and an exception in a thread needs a body for which the iteration fails, which no test has.", "anchors": ["cpp/dolfinx/geometry/gjk.h: compute_distances_gjk", "cpp/dolfinx/common/local_range.h: local_range", "python/dolfinx/geometry.py: compute_distances_gjk"]}
{"id": "C114", "title": "A mesh of points has exactly the given points, each on one process", "statement": "create_point_mesh makes a mesh with one cell for each point given on the process, in the order given, whose only node has the coordinates of the point (padded with zeros to three), for arrays of one to three columns in any memory layout (slices, transposed and reversed views); other numbers of columns raise an exception. No point is shared: the global numbers of the points of all processes are the numbers below the number of all points, each exactly once, and original_cell_index and input_global_indices hold them.", "quantifier": "for all numbers of processes, numbers of points per process (also zero), values and strides of the arrays", "why_tests_cant": "Tests use contiguous random points and compare on one process; views with other strides take another branch of the code, and the numbering matters only on several processes.", "anchors": ["python/dolfinx/mesh.py: create_point_mesh, create_geometry", "python/dolfinx/wrappers/dolfinx_wrappers/mesh.h: Geometry.__init__", "cpp/dolfinx/mesh/Geometry.h: Geometry"]}
{"id": "C115", "title": "Texts in XDMF files lead back to the data", "statement": "What add_data_item writes in an XDMF file, the functions that read it give back: get_dataset_shape the shape in the attribute Dimensions, get_dataset the numbers of the XML format in their order (where single numbers are written exactly, as integers are), whatever the length of the rows, and get_hdf5_paths the path in the HDF5 file, whatever the names of the file and of the mesh or tags in the path. Different XDMF files in a directory have different HDF5 files.", "quantifier": "for all shapes, lists of numbers, file names and names of meshes and tags", "why_tests_cant": "Tests write files with plain names such as mesh.xdmf and the default names of meshes; a name for which the text has another meaning when it is read makes a file that only fails much later.", "anchors": ["cpp/dolfinx/io/xdmf_utils.h: add_data_item, get_dataset", "cpp/dolfinx/io/xdmf_utils.cpp: get_hdf5_paths, get_hdf5_filename, get_dataset_shape"]}
{"id": "C116", "title": "Every step of a time series in an XDMF file has its own values", "statement": "After any sequence of calls of XDMFFile.write_function, with functions of any names and times in any order, real or complex, the file has for each name a collection with one step for each call with that name, in the order of the calls, and each step has the time and the values that the call was given.", "quantifier": "for all programs (lists of calls of any length), names, times and values", "why_tests_cant": "Tests write a function once or a few times with increasing times and do not read the file again (there is no reader for functions); values that a later call has replaced are only seen in a visualisation, where they look like results.", "anchors": ["cpp/dolfinx/io/XDMFFile.cpp: XDMFFile::write_function", "cpp/dolfinx/io/xdmf_function.cpp: add_function", "cpp/dolfinx/io/HDF5Interface.h: hdf5::write_dataset", "python/dolfinx/io/utils.py: XDMFFile.write_function"]}
{"id": "C117", "title": "The steps of a VTK series have files of their own", "statement": "After any sequence of calls of VTKFile.write_mesh and write_function on any number of processes, the PVD file lists one step for each call, in order, with its time; the file named there lists one piece for each process, and each piece has what that process has written in that call. No file of one step or process is written over by another, whatever the order in which the processes write and whatever the name of the PVD file.", "quantifier": "for all file names, numbers of processes, numbers of steps, times and data, and all orders in which the processes write", "why_tests_cant": "Tests write one or two steps to plain file names such as u.pvd, and do not look at what the files contain.", "anchors": ["cpp/dolfinx/io/VTKFile.cpp: get_counter, write_function, VTKFile::write, create_vtu_path", "python/dolfinx/io/utils.py: VTKFile"]}
{"id": "C118", "title": "Each step of a VTX file shows all functions at their nodes", "statement": "A VTXWriter that accepts a list of functions (on one mesh, Lagrange or constant on cells, real or complex, in any order) writes at each call of write one step with the time, a mesh whose nodes are the dofs of the functions that are not constant on cells (the nodes of the mesh itself if all are constant), and for each function a variable of its own (two if complex) with its values at that moment. With the policy `update` the mesh has the geometry of that moment, with `reuse` that of the first step. Lists for which this is impossible raise an exception in the constructor: two functions with the same name, or with different elements.", "quantifier": "for all lists of functions, orders, names and sequences of calls", "why_tests_cant": "Tests write a function constant on cells only behind another one, and look only at the names in the file; a wrong mesh or a missing function is only seen in a visualisation.", "anchors": ["cpp/dolfinx/io/ADIOS2Writers.h: VTXWriter, VTXWriter::write, extract_function_names, vtx_write_data, vtx_write_mesh, vtx_write_mesh_from_space", "python/dolfinx/io/utils.py: VTXWriter"]}
{"id": "C119", "title": "What is in an XDMF file is found by its name", "statement": "After any sequence of calls of write_mesh, write_geometry, write_meshtags, write_function and write_information on one XDMF file, reading with a name gives what was written with that name: read_mesh the topology and geometry of the mesh, read_geometry_data the geometry, read_meshtags the entities and values of the tags, and read_information the value last written; a name that was not used gives an exception. What is written with other names, before or after, has no influence, and what cannot be kept under the same name is refused.", "quantifier": "for all programs (lists of calls of any length), names and data", "why_tests_cant": "Tests write a mesh and one set of tags with a name of their own and read them again; tags that keep the default name and replace each other give plausible values on the wrong entities.", "anchors": ["cpp/dolfinx/io/XDMFFile.cpp: write_mesh, write_geometry, write_meshtags, write_function, write_information, read_topology_data, read_geometry_data, read_meshtags, read_information", "cpp/dolfinx/io/xdmf_mesh.h: add_meshtags", "cpp/dolfinx/io/xdmf_mesh.cpp: add_mesh", "cpp/dolfinx/io/HDF5Interface.h: hdf5::write_dataset"]}
