# Design of the formal model

The subject is DOLFINx (C++ core under `cpp/dolfinx`, Python layer under
`python/dolfinx`) at the pinned commit in `/repo`.  The code is read as text; it
is never compiled or run here.  The model and proofs are Lean 4 (`lean/`).

## Layout

* `lean/Verif/Model/*`  – executable definitions mirroring the code, function by
  function.  Every definition cites file and lines and says where it simplifies.
* `lean/Verif/Spec/*`   – small specifications written without reference to the model.
* `lean/Verif/Lemmas/*` – helper lemmas.
* `lean/Verif/Props/*`  – the theorems that state the properties, named after them
  (`C01_...`), each with `example`s showing a concrete, non-trivial instance of its
  hypotheses.
* `MANIFEST.json` maps properties to theorem names; `seeded/LOG.jsonl` records the
  wrong-program experiments.  Its field `result` says how much a run shows:
  `rejected` – a property theorem (`Cxx_...`) or a concrete `example` failed;
  `stopped_at_lemma` – only a helper lemma about the edited definition failed.
  The property then has no proof any more, but it was not itself shown to reject
  the edit, and an edit that changes nothing observable can end here too;
  `invalid` – the edited model did not compile, the run shows nothing;
  `survived` – everything still builds.  More than half of the runs are
  `stopped_at_lemma`, so the log is weaker evidence than its length suggests.
  Earlier versions of the log called all but the survivors `rejected`.  A failed
  proof is in no case a proof that the claim is false for the edited model.

Naming: a theorem ending in `_partial` proves only part of the property; a theorem
`Cxx_refuted_*` proves that the code violates the property as stated, with a
concrete witness (or a witness for every parameter).

## Trusted base

* Lean 4.33.0's kernel, and the axioms `propext`, `Quot.sound`, `Classical.choice`.
  No other axiom occurs; there is no `sorry`, `native_decide` or `bv_decide`.
* The faithfulness of the hand-written definitions in `Verif/Model` to the cited
  lines.  This is a reading of the source, not a verified extraction.
* The C++ standard library algorithms used by the code (`std::sort`, `lower_bound`,
  `unique`, `partial_sum`, `stable_sort`, ...) are modelled by their specification
  (e.g. `std::sort` by merge sort with the same order).
* MPI: a neighbourhood/all-to-all exchange delivers to rank `q` from rank `p`
  exactly the block `p` addressed to `q`; reductions and scans return the
  mathematical result on every rank.  Where the protocol itself is the subject
  (NBX, PCX) messages are modelled one by one in a transition system.
* Integers are unbounded unless a definition says otherwise (radix sort models the
  word width explicitly); sizes are assumed to fit the C++ types.
* Floating point: values are elements of an arbitrary commutative ring/field (exact
  arithmetic); rounding is not modelled.

## Not modelled

* External libraries: PETSc, SLEPc, ADIOS2, HDF5, ParMETIS, SCOTCH, KaHIP,
  SuperLU_DIST, VTK, basix and FFCx generated kernels (kernels appear as arbitrary
  functions), UFL.
* Python/C++ binding layer (nanobind), logging, timers, JIT compilation.
* Memory allocation, aliasing and data races.  Undefined behaviour is modelled only
  where stated (then as an explicit failure value).

## Properties: what is modelled and how it is proved

### C01 local_range tiles the index range evenly

Status: **proved**. `Model/LocalRange`: the closed formulas over naturals. Spec `Tiles` (consecutive ranges). Direct arithmetic.

Theorems: `C01_local_range_tiles`, `C01_local_range_balanced`, `C01_exactly_one_rank`

### C02 index_owner names the rank whose local_range holds the index

Status: **proved**. `Model/LocalRange`. Inverse of C01, including N < size where the quotient is 0.

Theorems: `C02_index_owner_spec`

### C03 radix_sort is a stable sort

Status: **partial**. `Model/RadixSort`: LSD passes with w-bit wrapping counters, cursors, masks, two swapped buffers, pass count from the maximum with the shared-top-bit shortcut. Invariant over passes; generic bucket-fill lemma.

Proved for 1 <= BITS < w and length <= 2^w; refuted outside: counters and cursors have the key type and wrap, and bucket_size truncates to 0 when BITS >= w.

Theorems: `C03_radix_sort_unsigned_partial`, `C03_radix_sort_signed_partial`, `C03_refuted_long_range`, `C03_refuted_wide_digit`

### C04 sort_by_perm returns the stable lexicographic row order

Status: **proved**. `Model/SortByPerm` on top of `Model/RadixSort`; composition of stable sorts.

Row count at most 2^w (w-bit values), digit width below w: always true for the instantiations in the code (32/64 bit, BITS=16). The 16-bit instantiation is covered by C03_refuted_wide_digit.

Theorems: `C04_sort_by_perm`, `C04_sort_by_perm_columns`, `C04_overloads_agree`

### C05 IndexMap ranges: global numbering is contiguous by rank

Status: **proved**. `Model/IndexMap.build`: exclusive scan and total of the owned sizes of all ranks (MPI_Exscan/Allreduce as sums). Induction on ranks.

Theorems: `C05_ranges_tile`, `C05_sizes`, `C05_unique_owner`

### C06 IndexMap local_to_global and global_to_local are inverse

Status: **proved**. `Model/IndexMap`: sorted (ghost, position) pairs and the `lower_bound` search of `Model/StdAlg`, including the -1 branch.

Hypothesis: ghosts are distinct and not owned here, as IndexMap requires.

Theorems: `C06_global_of_local_inverse`, `C06_local_of_global_inverse`, `C06_unknown_is_minus_one`, `C06_answer_iff_present`, `C06_global_indices`

### C07 NBX graph-edge discovery finds exactly the in-edges, for every message schedule

Status: **proved**. `Model/Nbx`: transition system with one program counter per rank, pending synchronous sends, one wildcard listener per edge set, barrier entry/exit, cancel-or-rescue of the last listener; arbitrary interleaving. Inductive invariant (message conservation) in `Lemmas/Nbx`; termination by a decreasing measure.

A job is any sequence of calls on one communicator; the documented tag requirement (different tags for consecutive calls) is a hypothesis, and is shown necessary by C07_refuted_same_tag_consecutive_calls. MPI matching and MPI_Ibarrier are modelled by their standard semantics.

Theorems: `C07_in_edges_exact`, `C07_nothing_in_flight`, `C07_no_deadlock`, `C07_terminates`, `C07_refuted_same_tag_consecutive_calls`

### C08 PCX graph-edge discovery finds exactly the in-edges

Status: **partial**. `Model/Pcx`: transition system (reduce-scatter, sends, wildcard receives, waits), arbitrary interleaving, eager or synchronous sends; counting invariant.

Proved for one call with no other PCX traffic on the communicator. Refuted for two consecutive calls: all calls use one tag, so a message of the second call can be taken by a rank still receiving in the first.

Theorems: `C08_in_edges_exact_partial`, `C08_receive_count`, `C08_nothing_in_flight`, `C08_no_deadlock`, `C08_terminates`, `C08_refuted_consecutive_calls`

### C09 distribute_data returns exactly the requested rows

Status: **proved**. `Model/PostOffice`: plan, pack through write cursors, exchange of rows and indices, request round, reply round, final loop; general lemmas on sort-by-rank + exchange in `Lemmas/Group`.

Requested indices are valid rows (as the code asserts). NBX results enter as any ordering of the in-edges (C07). A row is one element.

Theorems: `C09_distribute_from_postoffice`, `C09_distribute_data`, `C09_null_comm_with_data`

### C10 Forward scatter copies the owner's value into every ghost

Status: **proved**. `Model/Scatterer`: permutation of ghosts by owner, sizes, displacements, exchange of ghost numbers, index sets, pack, exchange, unpack for any block size.

MPI_Neighbor_alltoall(v) is a pure exchange (`Model/Exchange`); schedules below that call are trusted to MPI.

Theorems: `C10_forward_scatter`

### C11 Reverse scatter accumulates every ghost contribution into its owner exactly once

Status: **proved**. Same model; the reverse unpack folds `op`. Conservation and adjointness in any commutative (semi)ring.

Same trusted exchange as C10.

Theorems: `C11_reverse_scatter`, `C11_adjoint`, `C11_conservation`

### C12 Vector inner product and norms count each global entry once

Status: **partial**. `Model/VectorOps`: the loops over owned entries and the reductions; `Spec/GlobalVector` says what global vector the local arrays represent.

linf only for ranks that own at least one entry: with none the code dereferences max_element of an empty range (refuted). Arithmetic is exact (a commutative ring with conjugation), not floating point.

Theorems: `C12_inner_product`, `C12_inner_size_check`, `C12_squared_norm`, `C12_l2`, `C12_l1`, `C12_linf_partial`, `C12_refuted_linf_reads_ghost`, `C12_refuted_linf_out_of_bounds`

### C13 orthonormalize returns an orthonormal basis of the same space

Status: **partial**. `Model/VectorOps.orthonormalize`: the double loop; Gram-Schmidt invariant in an inner product space.

Holds for real scalars. Refuted for complex scalars: the projection coefficient is inner_product(basis[i], basis[j]) with the conjugate on the wrong argument. Exact arithmetic.

Theorems: `C13_same_span_unit_norm`, `C13_orthonormal_real_partial`, `C13_dependent_rejected_real`, `C13_refuted_complex`, `C13_refuted_complex_dependent`

### C14 SparsityPattern holds exactly the inserted entries

Status: **proved**. `Model/SparsityPattern`: cache, bucket_by_row, ghost-row packing through write cursors, exchange, hash map of global columns (as a function), stamp-based de-duplication, per-row sort. Loop invariants for each loop in `Lemmas/SparsityPattern`; result compared with the set of requested global (row, column) pairs.

The stacking constructor is not modelled. Indices are naturals (no overflow of the 64-bit byte counts). Arbitrary insertion histories on every rank.

Theorems: `C14_owned_rows`, `C14_ghost_rows`, `C14_column_map`

### C15 SparsityPattern life cycle is enforced

Status: **proved**. History of arbitrary calls with arbitrary received data; induction over the history.

A throwing call leaves the object unchanged because the check is the first statement of every member; this is how the model writes it.

Theorems: `C15_life_cycle`, `C15_counts`

### C16 MatrixCSR set/add touch exactly the addressed entries

Status: **partial**. `Model/CsrInsert`: the three insertion kernels, `lower_bound` search in the row, event-by-event update; specification `Spec/CsrView` (stored positions, contributions).

Refuted for inserting scalar-addressed rows with block size larger than the matrix block (insert_blocked_csr): only the first column of each block is looked up, so a missing second column overwrites an unrelated entry without error. The positive theorems assume block-complete patterns on that path.

Theorems: `C16_error_iff_missing_partial`, `C16_insert_partial`, `C16_add_partial`, `C16_set_partial`, `C16_add_order_independent`, `C16_refuted_blocked_missing`

### C17 MatrixCSR failed insertion leaves the matrix unchanged

Status: **partial**. Same model as C16; concrete counterexample.

The full claim is false in the code: entries before the missing one are already written. Proved instead: entries not addressed by the call never change.

Theorems: `C17_refuted_partial_update`, `C17_unaddressed_unchanged_partial`

### C18 MatrixCSR::scatter_rev conserves the assembled operator

Status: **proved**. `Model/MatrixScatter`: neighbour of each ghost row, counts, cursor packing of (row, column) pairs and of whole row slices, both exchanges, search of the position on the owner, accumulation, zero fill. `Spec/MatrixEntry` defines the represented global operator by summing over ranks, rows and positions.

Compact block mode. Scalars form a commutative monoid (no rounding). Asserted lookups are total in the model; `MatOk`, which `C18_pattern` derives for every finalised pattern, makes them hit.

Theorems: `C18_owner`, `C18_others`, `C18_conserved`, `C18_ghost_rows_zero`, `C18_pattern`

### C19 MatrixCSR matrix-vector product equals the dense product

Status: **proved**. `Model/SpMV`: kernels as loops over rows, entries and block components with row_begin/row_end/off-diagonal split, plus the scatter before (mult) or after (multT); result compared with the dense entries.

Exact arithmetic; the exchange is the trusted one of C10/C11.

Theorems: `C19_mult`, `C19_multT`

### C20 MatrixCSR transpose swaps entries

Status: **proved**. `Model/Transpose`: both loops of `local_transpose`, the cursor packing of off-process entries, the exchange, the sorted ghost column map, the merge of local rows and received entries, and the path without communication. `Spec/StoredEntry` says what a rank stores in global indices; the theorem is an equivalence in both directions.

Order needs only that no row of `A` stores a column twice. The sends of the three parallel buffers are one exchange of records.

Theorems: `C20_entry`, `C20_twice`, `C20_sorted`, `C20_layout`, `C20_col_map`

### C21 matmul returns the matrix product

Status: **proved**. `Model/MatMul`: the request for ghost rows of `B`, the row records sent back, the permutation into ghost order, the enlarged column map, the accumulator with its `is used` flags, the removal of cancelled entries and the sorted write. `Spec/MatrixValue` gives the value of a distributed matrix at a pair of global indices; the theorem equates it with the matrix product of the operands' values.

Values are a semiring (exact arithmetic). `C21_sorted` and `C21_nonzero` need no hypothesis at all. The order in which MPI delivers messages is taken as neighbourhood order.

Theorems: `C21_product`, `C21_sorted`, `C21_nonzero`, `C21_layout`, `C21_col_map`

### C22 Matrix transpose/product issue the same collective calls on every rank

Status: **partial**. `Model/CollectiveTrace`: list of collective calls as a function of the neighbourhoods, branch by branch.

Refuted: a rank without neighbours skips MPI_Dist_graph_create_adjacent, which is collective. The theorems give the exact condition under which the traces agree.

Theorems: `C22_transpose_same_iff`, `C22_matmul_same_iff`, `C22_same_collectives_partial`, `C22_refuted_isolated_rank`

### C23 AdjacencyList constructors and accessors agree

Status: **proved**. `Model/AdjacencyList`: offsets and flat array, constructors as loops.

Theorems: `C23_rows`, `C23_flat`, `C23_regular`, `C23_regular_reject`, `C23_trivial`

### C24 reorder_rcm returns a permutation

Status: **partial**. `Model/Ordering`: level structure, root search, breadth-first numbering, labelling loop, with fuel shown sufficient. Invariants: labelled = listed, listed nodes closed under links.

Holds for every undirected graph; refuted for directed graphs (the returned array is then not a permutation). The claim covers every order that the unstable library sort may give to nodes of equal degree, and termination.

Theorems: `C24_permutation_partial`, `C24_refuted_directed`

### C25 graph distribute delivers every node to all its destinations unchanged

Status: **partial**. `Model/GraphDistribute`: packing of destination records, exchange, unpacking, owned/ghost split. Packing and unpacking shown inverse for rows that fit; grouping of deliveries by destination as for the post office.

The fixed-degree overload is proved in full. The adjacency-list overload is proved under the hypothesis that no node has more links than the first local node the code measures; without it the code is wrong and a witness is given.

Theorems: `C25_distribute_partial`, `C25_distribute_fixed`, `C25_refuted_degree`

### C26 compute_ghost_indices returns the owner's new number

Status: **proved**. `Model/GhostIndices`: neighbour search with hash map and counters (invariant), packing through cursors, both lookup paths, the reply exchange and the final hash map.

Indices are naturals. The result of the neighbour discovery is any list C08 allows. The block_indirect_sort is any sort of the pairs in lexicographic order.

Theorems: `C26_ghost_numbers`, `C26_numbers_bijective`

### C27 compute_local_to_global and compute_local_to_local are consistent

Status: **proved**. `Model/LocalMaps`: array loops, shortcut and hash-map path.

local_to_local needs distinct globals (as stated); the identity shortcut would be wrong otherwise.

Theorems: `C27_local_to_global`, `C27_size_mismatch`, `C27_local_to_local`

### C28 compute_owned_indices gives each marked index to its owner

Status: **proved**. `Model/SharedIndices`: sort of (owner, global) pairs, the find/upper_bound counting loop, exchange, unique, range assertions. The loop is shown to cut the sorted list exactly into owner groups even when some neighbours receive nothing.

Marked lists are sorted (asserted by the code) and within range; repetitions allowed. Indices are naturals.

Theorems: `C28_owned_indices`

### C29 create_sub_index_map yields a consistent sub-map

Status: **proved**. `Model/SubMap`: `communicate_ghosts_to_owners` as a generic exchange (used twice), the possible-owner list with its binary searches, owner answers, destination rank exchange, owned/ghost split, ghost reordering, offset and renumbering. The specification (`Spec/SubMap`) only says which rank listed which global index.

The exception is a separate function `throws`; only the listed ranks throw, so other ranks would wait in the following collective. The model of the remaining steps is for the case that owner changes are allowed or that no rank throws. Debug assertions are not modelled.

Theorems: `C29_owned`, `C29_ghosts`, `C29_indices`, `C29_valid`, `C29_neighbours`, `C29_same_index`, `C29_one_owner`, `C29_throws`

### C30 stack_index_maps concatenates maps rank by rank

Status: **proved**. `Model/StackMaps`: offsets, union neighbourhoods, bucket pushes, the two exchanges and the unpack loop for every map. The new numbering is compared with positions in the rank-by-rank, map-by-map concatenation of all entries.

Numbers are naturals (no 32-bit overflow of local sizes).

Theorems: `C30_owned_numbers`, `C30_ghost_numbers`

### C31 shared_indices and index_to_dest_ranks report exactly the sharing ranks

Status: **proved**. `Model/SharedIndices`: both exchanges, sorting, offset loops, bucket pushes, position lookup. Every row of the returned data/offsets arrays is compared with the list of sharing ranks filtered from all ranks.

A record of two 64-bit integers is modelled as one pair.

Theorems: `C31_shared_indices`, `C31_index_to_dest_ranks`

### C32 Mesh tags hold exactly the given values on the entities that exist

Status: **proved**. `Model/MeshTags`: `sort_unique`, `entities_to_index` with its map from sorted vertices, the constructor with its debug checks, `create_meshtags` and `find`. Entities are compared by `List.Perm` in the statement.

Values come from a linear order, so NaN among floating values is outside the theorem. The MPI path that brings entity vertices to the rank is not part of the claim.

Theorems: `C32_sort_unique`, `C32_entities_to_index`, `C32_create`, `C32_find`

### C33 EntityMap maps between mesh and sub-mesh are inverse

Status: **proved**. `Model/EntityMap`: constructor checks, forward lookup, and the inverse built through `unordered_map::insert`, which keeps the first entry. `C33_backward` also covers maps that are not injective.

The shared pointers to the two topologies are not modelled; only the entity counts of the sub-topology enter.

Theorems: `C33_backward`, `C33_round_trip`

### C34 Small matrix kernels compute determinant, inverse, product and pseudo-inverse

Status: **proved**. `Model/SmallMatrix`: the formulas and loops of `common/math.h` on matrix views, with writes as function updates. The statements use Mathlib's `Matrix.det`, product, transpose and `crossProduct`.

Exact arithmetic: the rounding bound of Kahan's method is not covered.

Theorems: `C34_cross`, `C34_det`, `C34_inv`, `C34_dot`, `C34_pinv`

### C35 Cells that share a face or edge agree on its orientation

Status: **partial**. `Model/Permutations`: `min_element`, both rotation/reflection functions, the bit layout, `to_ulong`, facet numbers. `Spec/FaceOrient` defines rotation and reflection of listed vertices on its own.

Missing: triangles with global vertex numbers of 2^31 or more. There the claim is false: `g_pre` and `g_post` are `const int`, and `C35_refuted_large_numbers` gives two tetrahedra that orient a shared face differently. Quadrilaterals and edges are covered for all numbers.

Theorems: `C35_facets_partial`, `C35_edges`, `C35_agree_partial`, `C35_refuted_large_numbers`

### C36 Every cell sees the vertices of an edge or face in the same order

Status: **proved**. `Model/EntityList`: the three branches of `build_entity_list` with their compare-exchange sequences and the rotation that moves the opposite vertex last. The orientation is stated with `Spec/FaceOrient`, as in C35.

Vertex numbers are unbounded integers.

Theorems: `C36_row`, `C36_same_everywhere`, `C36_key`

### C37 Entities of the cells of a process are numbered consistently, for any number of threads

Status: **proved**. `Model/EntityNumbering`: thread ranges, offsets and writes, the numbering loop over a sorted order, `ghost_status`, and the two connectivity arrays. Schedules are arbitrary permutations of all writes of the threads.

`boost::sort::sample_sort` is trusted to return a permutation sorted by the key. Data-race freedom is by disjoint rows; the memory model is not modelled. Conforming meshes only: entities with the same vertices list them as the same face. The renumbering by `get_local_indexing` enters `C37_connectivity` as an arbitrary bijection.

Theorems: `C37_threads`, `C37_numbering`, `C37_order_irrelevant`, `C37_single_thread_order`, `C37_ghost_status`, `C37_connectivity`

### C38 Mesh entities shared between processes get one owner and one global number

Status: **proved**. `Model/EntityIndexing`: every step of `get_local_indexing` on all ranks, with `index_to_dest_ranks` from C31, the FNV hash on 64-bit words, and assertions as failure. The statement compares entities by their global vertices (`globalOf` and `List.Perm`). `C38_order` shows that `sort_by_perm` provides the order used.

Neighbourhood collectives, MPI_Exscan and std::sort are trusted. Index arithmetic is unbounded except in C38_order (vertices below 2^63).

Theorems: `C38_distribution`, `C38_bijection`, `C38_order`

### C39 All connectivities of a mesh agree with each other

Status: **proved**. `Model/Connectivity`: the histogram, prefix sum and cursor loop of the transpose, the edge table and facet loop, the case distinction of `compute_connectivity` with its failures, the double loop with insertion that keeps existing entries. `Good` is an invariant over all stored connectivities.

Basix' reference edge tables of triangle and quadrilateral are trusted constants. That create_entities leaves the state `EntitiesOk` requires is C37 and C38; create_entities itself is not composed with this theorem.

Theorems: `C39_transpose`, `C39_from_map`, `C39_from_map_missing`, `C39_create`

### C40 Processes agree on who shares a boundary vertex and who owns it

Status: **partial**. `Model/SharingRanks`: every step of `determine_sharing_ranks` on all ranks: post offices, grouping, choice of owner by an arbitrary draw, answers with the owner swapped to the front, unpacking.

Missing: vertex numbers that agree in their low 32 bits, and lists that do not ascend. In both cases the claim is false; the two refutations give one process with vertices 0 and 2^32 (numbers are sent as `int`), and two processes with an unsorted list (the documentation of create_topology does not ask for sorted boundary vertices). Numbers below 2^32 are all covered.

Theorems: `C40_sharing_partial`, `C40_refuted_large_numbers`, `C40_refuted_unsorted`

### C41 A distributed mesh gets one consistent vertex numbering

Status: **partial**. `Model/CreateTopology`: ownership groups, numbering of owned vertices on both lookup paths, the exchange of boundary vertices, the exchange along ghost cells for each cell type, the two unpacking loops, and the conversion of cells on all threads.

Missing: boundary vertices with equal low 32 bits, and boundary vertices that do not ascend (see C40). The refutation gives two processes without common vertices where one takes the vertex of the other for its own. The neighbourhood discovery of compute_ghost_indices is trusted to return the in-edges (C08).

Theorems: `C41_create_topology_partial`, `C41_refuted_large_numbers`

### C42 A dof map numbers the dofs of shared mesh entities consistently

Status: **proved**. `Model/DofmapBuilder`: collection of the required entity types, original numbering, first-touch renumbering, the graph of owned dofs, reordering by any permutation, and the exchange of new numbers of shared dofs on all ranks in any order of completion. `DofNumbering` states consistency by entities and `globalOf`.

Connectivity needed by the layouts is assumed to exist (the code checks it only for the first cell type that needs it). Layouts without any dof, where reorder_owned divides by zero, are excluded from the model's scope. Neighbourhood collectives and std::sort are trusted; indices are unbounded.

Theorems: `C42_dofmap`, `C42_attached_unique`, `C42_rcm_admissible`

### C43 A real element has one dof shared by all cells of all processes

Status: **partial**. `Model/RealDofmap`: owner flag, MPI_MAXLOC reduction, index map and array on all ranks.

Missing: meshes without any cell, where the claim is false (refutation: rank 0 becomes the owner of its own ghost and no rank owns the dof).

Theorems: `C43_real_dofmap_partial`, `C43_refuted_no_cells`

### C44 The dual graph links exactly the cells that share a facet

Status: **proved**. `Model/DualGraph`: sorting networks for facets, the facet table written by all threads in any order, runs of equal facets, local edges and adjacency list, post offices by first vertex, both exchanges, answers, merged graph and the in-place removal of duplicates. `Spec/DualGraph` lists the facets of all cells and states adjacency by permuted vertex lists.

With a bound on the cells per facet, the bound must hold over all processes; the refutation shows a facet in three cells with bound two whose link between processes is missing (graphbuild.h documents it). The orders found by the radix sorts are inputs required to be sorted permutations (C03), NBX is trusted to return the in-edges (C07), and indices are unbounded.

Theorems: `C44_dual_graph`, `C44_symmetric`, `C44_no_duplicates`, `C44_refuted_limit`

### C45 Assembling a matrix over all processes sums all element contributions and imposes constraints exactly

Status: **proved**. `Model/Assembly`: the element loops with zeroing of constrained rows and columns, offsets within the macro tensor of interior facets and missing cells, dispatch over integral types and cell types, the pattern calls, markers from boundary conditions and `set_diagonal`. Composed with the models of the sparsity pattern (C14), matrix insertion (C16) and row exchange (C18). `Spec/Assembly` lists elements of a form and sums them by global dofs.

Element matrices (kernels and dof transformations) are arbitrary inputs; entries are in an arbitrary commutative ring, so rounding is not modelled. Boundary condition dofs are sorted with the owned ones first, as DirichletBC keeps them, and consistent across processes (the caller's duty). `C45_diagonal_error` states exactly when the diagonal step raises an error: some owned constrained dof is not coupled with itself by the form on any process. Mixed topology with facet integrals is rejected as in the code.

Theorems: `C45_matrix`, `C45_matrix_diagonal`, `C45_diagonal_error`, `C45_create`, `C45_rejects`

### C46 Assembling a vector and lifting sum all element contributions of all processes

Status: **proved**. `Model/Assembly`: the element loops, `lifting_fn` as a matrix insertion function used with the loops of `assemble_matrix`, markers and values collected from the conditions, `DirichletBC::set` with its three kinds of values. `Spec/Assembly` sums element vectors by global dofs, and `Prescribed` states which condition counts. Composed with the reverse scatter of C11.

For facet or vertex integrals on meshes with several cell types the claim is false: `assemble_vector` takes the integrals of kernel index 0 for every cell type and adds the facet once per type, without an error (`C46_refuted_mixed_facets`; `assemble_matrix` rejects such forms). Element tensors are arbitrary inputs over a commutative ring; rounding is not modelled. Agreement of conditions across processes is the caller's duty.

Theorems: `C46_vector`, `C46_lifting`, `C46_set`, `C46_refuted_mixed_facets`

### C47 The assembled system is equivalent to the equations with Dirichlet conditions

Status: **proved**. Composition of C45 and C46 with the row exchange (C18) and the reverse scatter (C11): the statement speaks about the arrays on the owners after all steps.

One block with equal test and trial space, diagonal value 1. Errors when setting the diagonal are those of C45 (hypothesis `hne`, characterised by `C45_diagonal_error`). Rounding is not modelled.

Theorems: `C47_system`, `C47_symmetric`

### C48 Dofs of boundary entities are located completely and consistently on all processes

Status: **partial**. `Model/LocateDofs`: search of the entity in its first cell, closure dofs in the blocked and the unrolled case, global numbers, the symmetric neighbourhood and the translation of what arrives. `Spec/LocateDofs` states dofs by any cell of the entity and by `globalOf`.

The full claim is false: the exchange reaches only processes in an owner-ghost relation and the owner does not pass on what it receives, so a dof found by one ghost process stays unknown to another one (`C48_refuted_second_neighbour`). Proved: exactly which dofs each process returns, that the owner always has them, and consistency where the owner finds the dof itself or only one other process has it. The version for two spaces is C81. The neighbourhood allgather is trusted; `Ok.agree` (cells agree about the dofs of a common entity) is C42.

Theorems: `C48_local`, `C48_rejects`, `C48_located`, `C48_in_map`, `C48_symmetric`, `C48_owner`, `C48_consistent_partial`, `C48_consistent_pair_partial`, `C48_condition_partial`, `C48_refuted_second_neighbour`

### C49 Searching a bounding box tree finds every collision

Status: **partial**. `Model/BBTree`: boxes of entities with padding, recursive construction with an arbitrary rearrangement for `nth_element`, the loop with the stack, the recursion over two trees, the global tree. `Spec/BBTree` states boxes and the tolerance.

The full claim is false in two cases. In a tree with a single leaf whose entity number is not 0, a point outside of the box makes the code use the entity number as a node number and read outside of the arrays (`C49_refuted_single_leaf`). Trees of points (create_midpoint_tree) take the lexicographic minimum and maximum as corners of inner boxes, which do not contain the points, and lose points (`C49_refuted_point_tree`). Everything else is proved: trees of boxes with any other number of leaves, and all pairs of trees of boxes. Arithmetic: any operations that are monotone, so rounding is covered, NaN is not. Boxes are those of all nodes of an entity, which need not contain curved entities (`C97_refuted_curved` shows such a cell).

Theorems: `C49_points_partial`, `C49_trees`, `C49_mesh`, `C49_global`, `C49_refuted_single_leaf`, `C49_refuted_point_tree`

### C50 compute_closest_entity returns an entity with the smallest distance

Status: **partial**. `Model/BBTree`: `closestRec` and `closest` with both searches.

For trees of vertices (dimension 0) with padding the claim is false: the code takes the distance to the lower corner of the padded box (`C50_refuted_padded_vertices`). For all other dimensions, and vertices without padding, it is proved, although the search in the tree of midpoints can miss the closest midpoint (`C50_refuted_point_search`): the proof needs only that its result is the distance to some midpoint. The GJK distance is an input, attained at a point of the entity's box; exact arithmetic over any ordered ring.

Theorems: `C50_closest`, `C50_vertices_partial`, `C50_empty`, `C50_refuted_padded_vertices`, `C50_refuted_point_search`

### C51 Every point gets one owner, and destinations mirror the owners

Status: **proved**. `Model/PointOwnership`: packing by offsets and counters, the exchanges in both directions with reused sizes, the two rounds of ownership updates and the unpacking. `Spec/PointOwnership` states lowest touching rank, lowest closest rank and first cells by candidates and distances only. A generic lemma about folds with a strict comparison (`argmin_fold`) covers both searches for minima.

The collisions with the global tree and with the local tree are inputs (C49 is about them), so are the GJK distances; `Good` says that collisions are different ranks of the communicator. Point coordinates are sent as one item instead of three numbers. Neighbourhood exchanges and the computation of the source ranks are trusted (C07).

Theorems: `C51_owner_inside`, `C51_owner_outside`, `C51_owner_none`, `C51_dest`, `C51_scatter`

### C52 Refined cells tile the old cells and fit together

Status: **proved**. `Model/RefineSimplex`: `get_triangles` and `get_tetrahedra` with its table of connections. `Model/RefineCells`: the loop over cells. `Spec/Subdivision` states tilings by barycentric coordinates, `Spec/Conforming` how a facet is cut, by marks and longest edges only. Tiling: the new cells are the leaves of a tree of bisections (checked by the kernel for the whole input space of one cell), and bisection keeps tilings. Conforming: within each cell, each part of a facet is in exactly one new cell and other sides in two (whole input space of one cell); a counting argument extends this to all meshes.

Longest edges must come from one order of all edges; without it cells vanish (`C52_order_needed`). Cells are given by their vertices, midpoints by pairs of vertices; index arrays, numbering of new vertices and propagation of marks are separate properties. Coordinates of new vertices are exact midpoints.

Theorems: `C52_triangles_tile`, `C52_triangles_points`, `C52_tetrahedra_tile`, `C52_tetrahedra_points`, `C52_unmarked`, `C52_conforming_2d`, `C52_conforming_3d`, `C52_parts_used`, `C52_order_needed`

### C53 Marks for refinement are propagated completely and alike on all processes

Status: **proved**. `Model/RefineMarks`: initial marks, lists to be told, exchange, faces, loop with fuel. `Spec/MarkClosure`: the least closed set, inductively. Invariant: marks are justified, pending lists contain what neighbours lack; the number of marks grows until the loop ends. `Model/LongEdge`: lengths and the search with its tie-break.

Edges must be given on all ranks or on none, as the API wants it. Edge lengths are an input function with values in any linear order, equal on all ranks for the same edge (`C53_longest` asks for lengths by global vertices): with floating point this needs that the norm of a difference does not depend on the order of its end points, which holds in IEEE arithmetic. `C53_edge_length` shows that the code finds the positions of the end points. Neighbourhood exchanges are trusted; the neighbourhood itself is C31.

Theorems: `C53_marks`, `C53_consistent`, `C53_edge_length`, `C53_longest`, `C53_longest_2d`

### C54 Vertices of a refined mesh are numbered alike on all processes and have the right positions

Status: **proved**. `Model/NewVertices`: marked edges, scan, values to send, exchange of flattened pairs, sorted data with partial sums of flags as offsets, adjusted numbers of owned and ghost vertices, copied positions and midpoints. `Spec/NewVertices`: numbering without gaps, straight geometry. Proof: block sizes by rank give the numbering; the received pairs are exactly the marked edges of the rank that others own.

Marks are equal on all ranks (C53). Points are items of any type with a symmetric mean of two of them, so rounding is covered. Geometry of degree 1: the closure of an edge has two dofs (`Straight`); for curved cells the code takes the mean of all dofs of the edge, which is outside of the claim. Exchanges and scans of MPI are trusted.

Theorems: `C54_numbering`, `C54_positions`, `C54_blocks`

### C55 Refining a distributed mesh gives a conforming mesh

Status: **proved**. `Model/Refinement`: `compute_refinement` for all ranks, using the models of C52 (subdivision of one cell), C53 (longest edges and marks) and C54 (new vertices); `compute_parent_facets` with the search for common points and its assertion. `Spec/SimplexMesh` states a distributed mesh by global vertex numbers, `Spec/RefinedMesh` the refined mesh by numbered points. Proof: the marks and longest edges on all ranks are one rule for global vertices, hence C52 applies; a new vertex number determines its point, so counts of vertex sets are counts of numbered cells.

The mesh on the ranks is any data with `MeshOk`: connectivities of one mesh, edges with different pairs of vertices, lengths equal on all ranks, no cell twice. Geometry of degree 1. What create_mesh makes of the arrays (partition, ghosts, reordering) is not part of this; see C38, C41, C42. MPI exchanges and scans are trusted.

Theorems: `C55_refinement`, `C55_parents`, `C55_positions`

### C56 Tags are transferred to the refined mesh

Status: **proved**. `Model/TagTransfer`: counting and filling of children by offsets, search of local facet numbers, values per new facet, sorting of pairs. `Spec/TagTransfer` states which new side lies on which old facet by points of the refinement (C55), without parent facets. Errors are values.

Tags are on a mesh without ghosts, as the code demands, hence one process at a time is enough (`OldFacets`, `SameCells`). The order of the new cells (`original_cell_index`) is a permutation of the cells of the refinement, and new facets are numbered in any way that identifies facets with equal vertex sets: what the topology of the new mesh gives (C14, C38).

Theorems: `C56_cells`, `C56_facets`, `C56_rejects`

### C57 Refining a mesh of intervals divides exactly the requested cells

Status: **proved**. `Model/IntervalRefinement` uses the marks and the exchange of C53 and the new vertices of C54. `Spec/IntervalRefinement` states requested cells by global numbers and the two halves of a cell. Counting is done over global cell numbers: owned cells of all processes are the numbers 0, 1, ...

Cells must be given on all processes or on none. Geometry of degree 1; exchanges and scans of MPI are trusted. Building the new mesh from the arrays is outside of this property.

Theorems: `C57_intervals`, `C57_positions`

### C58 Uniform refinement divides all cells into cells that tile them and fit together

Status: **partial**. `Model/UniformRefine`: offsets, exchange of numbers (the scatter of C10), tables, cells of all types on all ranks, coordinates. `Spec/ReferenceCell` has the reference cells and their maps, `Spec/MixedMesh` and `Spec/UniformMesh` meshes of mixed type by global vertex sets. Tiling is proved over any ordered field from the maps; conformity by counting over sides of the reference cells (finite tables, completely enumerated) and injective vertex numbers.

Proved for all meshes of triangles, quadrilaterals, tetrahedra, prisms and hexahedra, mixed in any way. For pyramids the statement is false: the 5 pyramids and 4 tetrahedra leave a hole (the pyramid that hangs from the square below the top), shown by a point and by a side that belongs to one cell only. Geometry of degree 1; what create_mesh does with the arrays is not part of this.

Theorems: `C58_uniform_partial`, `C58_rejects`, `C58_refuted_pyramid_hole`, `C58_refuted_pyramid_fits`

### C59 Integrals visit each entity of their domain exactly once over all processes

Status: **proved**. `Model/IntegrationDomains`: set difference, pairs of cell and local index, the loop with the error, owned prefix by binary search, default domains, intersection with exterior facets. `Spec/Integration` states domains by the number of cells at global entities. Key facts: an owned facet that is not an interprocess facet has all its cells on the process, an interprocess facet has two cells.

The connectivities and interprocess entities on the processes describe one mesh (`Ok`): this is what C16, C38 and C39 are about. For interior facets no facet may have more than two cells.

Theorems: `C59_cells`, `C59_exterior`, `C59_interior`, `C59_points`, `C59_missing`

### C60 The values of a functional on the processes add up to its value on the whole mesh

Status: **partial**. `Model/FormIntegrals`: domains of all ids, attaching by binary search, lookup by position, accumulation. `Spec/FormValue` states the value by global entities. Proof: C59 for each integral, then exchange of sums.

The full statement is false in two cases. Two default integrals (id -1) of a facet, vertex or ridge kind: the vector of default entities is not cleared, the second integral is evaluated twice (`C60_refuted_default_twice`). A list of subdomains without entry for an id of the form: assembling fails with a missing kernel (`C60_refuted_gap`). Proved for all other forms with tags, or without subdomain data when all ids are default. The kernel gives the same value on every process and for every row that stands for the entity (for ds there is one such cell; for dS it must not depend on which side is first). Exact arithmetic; coefficients, constants and geometry are part of the kernel; one cell type.

Theorems: `C60_scalar_partial`, `C60_refuted_default_twice`, `C60_refuted_gap`

### C61 Meshes of intervals, rectangles and boxes fill them and are conforming

Status: **proved**. `Model/BoxMesh`: the loops with their index formulas, the alternation of diagonals by a state, ranges of processes. `Spec/BoxMesh`: mesh of a box by points and vertex sets. Proof: all these meshes are lattices of cubes with one of finitely many patterns; each pattern divides the unit cube (linear arithmetic over an ordered field), sides of neighbouring patterns match (complete check over pairs of patterns), and cubes are counted by induction (`Lemmas/LatticeMesh`, `LatticeTiles`, `UnitCubes`, `BoxMesh`).

Exact arithmetic in any ordered field; a width must not be below the machine epsilon. This is about the arrays given to create_mesh (what it does with them is C38, C41, C42). The C++ overload of create_box with a second communicator is covered for tetrahedra and hexahedra; for prisms it loses cells (`C61_refuted_prism_subcomm`). Triangles of a too flat rectangle are rejected by process 0 only (`C61_refuted_flat`).

Theorems: `C61_interval`, `C61_rectangle`, `C61_box`, `C61_rejects`, `C61_refuted_prism_subcomm`, `C61_refuted_flat`

### C62 A sub-mesh consists of exactly the listed entities

Status: **proved**. `Model/Submesh`: sorted lists, sub index maps (the model of C29) for entities, vertices and nodes, incident vertices, inverse tables with their assertions, rows in the new numbering, copied coordinates. `Spec/Submesh` states a consistent sub-numbering (`IsSubMap`) and the sub-mesh by its maps. Proof: C29 for the three maps, inverse tables by the lemmas on written arrays.

One cell type. The mesh is any data with `SubmeshInput`: valid index maps, entities and nodes in range, cells of an entity have the same nodes on it. The permutation of closure dofs is a function of Basix: it is a parameter that permutes; that the permuted nodes of an entity agree between cells is an hypothesis of `C62_agree` (C35 is about the numbers it uses). An error on one process counts as an error of the call. Exchanges of MPI are trusted.

Theorems: `C62_submesh`, `C62_agree`, `C62_refused`, `C62_unsupported`

### C63 Tags are transferred to a sub-mesh

Status: **partial**. `Model/SubmeshTags`: checks, inverse cell table, search over cells and their entities, values with the marker, filter. `Spec/SubmeshTags`: faces by a table of the reference cell, equality of entities by vertices.

The claim is false for one value: the largest value of the type marks untagged entities, tags with it are lost (`C63_refuted_max`). Proved for all other values. Hypotheses (`SubTagsOk`): connectivities are those of faces of a reference cell, entities are known by their vertices, the maps are those of C62. One process, there is no communication.

Theorems: `C63_transfer_partial`, `C63_refused`, `C63_refuted_max`

### C64 Cells keep their shape when written to and read from files in VTK's order

Status: **proved**. `Model/CellPerm`: the tables and loops, vec_pop with negative positions, running indices. `Spec/CellNodes`: lattice positions of nodes in both orders, recursively for VTK. Proof: each pass over the remainders removes exactly one shell of the lattice (`Lemmas/PopLoop`, `VtkTriangle`, `VtkTet`, `VtkTetFaces`, `VtkTetRem`), by induction on the degree; the passes commute with renaming entries, so they can be run on the positions (`VtkMaps`, `VtkSimplex`, `CellPermMain`).

For cells of at most 65536 nodes: entries are 16 bit numbers, above (hexahedra of degree 40 and more) an array is returned that is no permutation (`C64_refuted_large`). Trusted: the orders of Basix and VTK as written in `Spec/CellNodes` (from their documentation), exact roots in cell_degree (floating point in the code).

Theorems: `C64_read`, `C64_write`, `C64_perm`, `C64_refuted_large`, `C64_refuted_large_hexahedron`

### C65 Cells keep their shape when read from Gmsh

Status: **proved**. `Model/CellPerm.gmshMap`, `Spec/CellNodes` (`GmshOrder`). Complete enumeration of the finitely many tables, intervals by a general argument, then as C64.

Intervals of at most 65536 nodes. Trusted: the orders of Basix and Gmsh as written in `Spec/CellNodes`.

Theorems: `C65_read`, `C65_perm`, `C65_refused`

### C66 Meshes are the same after they are written to and read from VTKHDF files

Status: **partial**. `Model/Vtkhdf`: data sets are lists of rows that the processes write into, 32 bit sums, offsets, types; on reading the ranges of `local_range`, gathered types, sorted cells. `Spec/Vtkhdf`: what a file says (`Describes`), positions by the orders of C64. Proof: concatenation of the parts of all processes, prefix sums over processes and types exchanged, slices of the file belong to slices of the list of cells.

The claim is false: with several cell types and ghost cells the offsets are wrong and the file cannot be read (`C66_refuted_ghosts`); sizes are added up in 32 bit integers, so 2^28 linear hexahedra cannot be written (`C66_refuted_large`); prisms of degree two are written but not read (`C66_refuted_prism`), pyramids of degree two are read as linear ones (`C66_refuted_pyramid`). Proved where only the last cell type has ghost cells, the connectivity has less than 2^31 entries, degrees are at most 255, and prisms and pyramids are linear. The mesh is what read_mesh passes to create_mesh (C25, C38 and C41 are about what follows). HDF5 and MPI_Allgatherv are trusted.

Theorems: `C66_write_partial`, `C66_read`, `C66_roundtrip_partial`, `C66_refuted_ghosts`, `C66_refuted_large`, `C66_refuted_prism`, `C66_refuted_pyramid`

### C67 Every process gets the cells assigned to it and, with ghosts, all their neighbours

Status: **proved**. `Model/GhostLayer`: `compute_destination_ranks` step by step (search in `node_disp`, hash sets in any order, exchange, offsets, swap), SCOTCH's variant, slices per cell type, C25's distribution, on top of the dual graph of C44. Proof: sources and destinations are the same ranks as the graph is undirected; membership through exchange and bucket fill; C44 turns links into common facets; C25 delivers the rows.

The assignment computed by the graph library is an arbitrary parameter; for SCOTCH, the halo exchange of the assignment is the library's. `compute_destination_ranks` alone is wrong for graphs with links in one direction only (`C67_refuted_directed`, the size of `recv_sizes`), which the dual graph of a mesh never has (C44).

Theorems: `C67_destinations`, `C67_scotch`, `C67_cells`, `C67_refuted_directed`

### C68 Sub-spaces share out the degrees of freedom of a space as its element says

Status: **proved**. `Model/SubSpace`: entity dofs, layouts with parent maps, `sub_view`, `sub_layout`, `extract_sub_dofmap` as loops. `Spec/SubSpace`: a sub-element is an offset and a stride, composed along the path; dofs are counted with all components. Proof by induction over the path and the list of sub-elements.

Stated for one component at a time, as the Python interface does it. C++'s `sub({i, j})` with several components at once takes each component from the top-level sub-elements and gives a wrong view (`C68_refuted_nested`). Element data (entity dofs, block sizes) is any data of the right shape.

Theorems: `C68_view`, `C68_invalid`, `C68_partition`, `C68_refuted_nested`

### C69 A collapsed sub-space is a space of its own with the same degrees of freedom

Status: **partial**. `Model/SubSpace`: `build_collapsed_dofmap` on top of the sub index map of C29, the branch through `build_dofmap_data` (C42), the loop that writes the map. `Spec/SubSpace` (`CollapseOk`): cells, sizes, global identity and owners. Proof: `Lemmas/Collapse` (views), `SubPerm` (permutations and sub-elements), `CollapseSpace` (spaces of C42 satisfy what is needed).

The claim is false for a vector-valued (blocked) sub-space of a mixed space whose element needs dof permutations, such as Lagrange of degree 3: its dofmap is built anew without `permute_inv`, and on a reflected edge the dofs of two cells do not fit (`C69_refuted_permuted`). Proved for all other sub-spaces: unblocked ones with any element (`C69_unblocked`), blocked ones with elements without permutations (`C69_blocked_partial`). Hypotheses: the space is one that `create_dofmap` builds on a consistent mesh (`SpaceOk`, as C42), each process has a cell at every entity it has dofs on (`Touched`), and the values of the basix element permute the dofs of each entity among themselves. One cell type. MPI exchanges are trusted.

Theorems: `C69_unblocked`, `C69_blocked_partial`, `C69_function`, `C69_refuted_permuted`

### C70 Every cell of a mesh has the coordinates that were given for its nodes

Status: **proved**. `Model/Geometry` on top of the models of C42 (`build_dofmap_data`), C27 (local maps) and C09 (`distribute_data`). `Spec/Geometry` states the geometry by cells and input nodes. Proof: C42 makes the input nodes of all cells a renaming of the dofs, which C27 turns into the map from dofs to rows.

Hypotheses (`GeometryOk`): a consistent topology (`Dofmap.Ok`, as C42; C38 and C41 are about it), each entity is in a cell of the process, and the nodes given for the cells fit the topology (`NodesFit`): nodes are the same exactly if they are the same node of the same entity, where cells see the nodes of their entities through `permute_inv` of the element. For linear cells this is C41's statement on vertices. `permute_inv` is any function that permutes entries by position. Results of NBX are in any order. Dimension at most 3 (the precondition of the code).

Theorems: `C70_geometry`, `C70_refused`

### C71 The transpose of a dofmap lists every place of every dof

Status: **partial**. `Model/DofmapTranspose`: largest entry, counts, offsets, filling with cursors. Proof: the lemma on bucket filling of C44, then induction over positions.

The claim is false for an empty dofmap (a process without cells): the largest dof is read at the end of an empty range (`C71_refuted_empty`). Proved for all arrays with an entry; a dofmap with ghost cells only gives empty rows. Positions are natural numbers (int32 in the code).

Theorems: `C71_transpose_partial`, `C71_assemble`, `C71_refuted_empty`

### C72 Entities are located exactly where the marker says

Status: **proved**. `Model/LocateEntities`: both ways of collecting vertex coordinates (the last cell written, the first cell at a vertex), loops over entities with early exit, table of positions; indices past the end are errors. `Spec/LocateEntities`: the mesh by global numbers. Proof on top of C59 (exterior facets) and C48 (dofs).

Hypotheses (`PointsOk`, `Ok`): the stored connectivities describe one mesh (C38, C39, C59), each vertex of a process is in one of its cells, and the node at the place of a vertex in any cell is the point of the vertex (C70). For `C72_dofs` also that processes agree on the dofs of an entity (C42). Markers are applied to each point by itself. That ghosts of a dof are found too is C48 (partial).

Theorems: `C72_located`, `C72_boundary`, `C72_complete`, `C72_facets`, `C72_dofs`, `C72_refused`

### C73 Values given for entities by input nodes arrive at these entities on all processes

Status: **partial**. `Model/EntityData`: vertex places of an entity, post offices, sorted records, exchanges, table of ranks, reversed exchange, map from nodes to vertices, selection. `Spec/EntityData`: vertex nodes of an input entity, vertices at nodes, smallest value. Proof: what arrives is, up to order, the list of all entities filtered by their first node; then the selection, and C32 for the tags.

The claim is false if the input of create_mesh has nodes that belong to no cell: post offices are chosen with the number of nodes of the geometry, which is then smaller than the node numbers, and `index_owner` gives a rank that does not exist (`C73_refuted_unused`, on one process). Proved for inputs without such nodes (`Ok`). Hypotheses: vertices of a process and their nodes are in correspondence (C41, C70), each process has a node once (C70), entities are known by their vertices (C38). Nothing is claimed on the order of the result. Exchanges of MPI are trusted.

Theorems: `C73_distributed_partial`, `C73_tags_partial`, `C73_refuted_unused`

### C74 Meshes and mesh tags survive XDMF files

Status: **partial**. `Model/Xdmf`: tables of names, rows of entities through the first cell and its local number, data items with offsets, ranges that processes read, permutations (once for meshes, twice for tags), `distribute_entity_data` (C73) and `create_meshtags` (C32). `Spec/Xdmf`: owned cells and points, vertex nodes of entities, owned tags. Proof: the tables of all supported types are checked by complete enumeration (inverse permutations; vertices stay among the first places), the rest holds for all meshes.

The claim is false for cubic triangles and tetrahedra, which are written under names that are not known when reading (`C74_refuted_cubic`), and for tags on facets of prisms and pyramids: the test that should refuse them compares the dimension of the cell with 2, never holds, and tables are read outside of their range (`C74_refuted_prism`). Quadrilaterals with eight nodes, for which the Python layer has a case, cannot be read (`C74_refuted_quad8`), nor can flat HDF5 arrays (`C74_refuted_flat`); the XML encoding loses digits (`C74_refuted_xml`). Proved for the fourteen combinations of type and number of nodes in `supported`, with at least one cell or tag (an empty data set fails an assertion). Hypotheses: dofs of an entity start with those of its vertices (Basix), vertex nodes of an entity do not depend on the cell and identify it (C38, C70), and the mesh that reads satisfies what C73 needs; its input nodes are those of the file. A mesh on the line is read as one in the plane (documented). HDF5 itself is trusted; coordinates are copied, not rounded.

Theorems: `C74_mesh_partial`, `C74_tags_partial`, `C74_refuted_cubic`, `C74_refuted_quad8`, `C74_refuted_flat`, `C74_refuted_prism`, `C74_refuted_xml`

### C75 Kernels get the coefficient values of their own entity

Status: **proved**. `Model/Coefficients`: entity maps in both directions, the lists that the constructor of `Form` makes for arguments and coefficients, offsets, storage, copying of blocked and transformed values by stride, both sides of facets, expressions, constants; indices out of range are errors. `Spec/Coefficients`: which cell of another mesh is a cell or facet, local values, places in rows. Proof: what one coefficient writes, and that coefficients write at disjoint places, by induction over coefficients and entities.

Hypotheses (`FormOk`, `DomainOk`, `EntsOk`): the integrals of each type are numbered without gaps (C60), there is exactly one entity map between the two meshes, with a number for each cell of the smaller one, each once; cell-to-entity tables have the rows that are needed; dofs are in the range of the vector. If the mesh of the form is the smaller one and has lower dimension, nothing is refused and facet numbers are used as cell numbers (`C75_refuted_dimension`); this is outside of the property. Coefficients on meshes with several cell types are refused by the code. That kernels read rows in this layout is the convention of UFCx (trusted). Transformations of elements are arbitrary functions that keep the length.

Theorems: `C75_pack`, `C75_coefficients`, `C75_arguments`, `C75_expression`, `C75_constants`

### C76 Interpolation gives the dofs of the function that is interpolated

Status: **partial**. `Model/Interpolate`: the routines as loops over cells, blocks and points into the vector, sizes checked as by the assertions. `Spec/Interpolate`: place of a local dof in the vector, components of blocks, dof functionals as sums, `Sets`. Proof: each routine is a list of writes to the places of the cell; what is written is the functional.

The claim is false for blocked elements whose map is not the identity (values cannot be interpolated, `C76_refuted_blocked_piola`) and for functions of symmetric matrix elements that are interpolated into an element with another map (`C76_refuted_symmetric`: entries are mixed up and one is zero). Also not proved: values for symmetric elements that are not point evaluations (refused by the code), functions between elements of which one is symmetric. Everything else is proved for all elements whose sizes fit together (`ElemOk`), with arbitrary dof transformations and maps at points; hypotheses on Basix: an element of point evaluations has the identity as interpolation matrix, the operator between two elements is the interpolation matrix times tabulated basis functions (`basixOp`), pulling back undoes pushing forward (`PullsBack`). On manifolds value sizes and reference value sizes differ; not modelled. Exact arithmetic. The dofmap of a cell has no repeated dof (`DofsOk`).

Theorems: `C76_data_partial`, `C76_callable_partial`, `C76_callable_refuses`, `C76_points`, `C76_expression_partial`, `C76_expression_refuses`, `C76_same`, `C76_same_map`, `C76_other_map_partial`, `C76_shape_refused`, `C76_conforming`, `C76_refuted_blocked_piola`, `C76_refuted_symmetric`

### C77 Evaluation at points gives the values of the function

Status: **proved**. `Model/Interpolate` (`eval`): zeroed array, loop over points, coefficients of the cell, sums by block with `row` and `rowstart` for symmetric matrices. `Spec/Interpolate` (`IsValue`). Proof: each loop adds a function of the place to the array (`Adds`); each component is the place of exactly one block. With C76 for interpolated functions.

The basis functions at the points (pull back of points, tabulation, transformation, push forward) are given; their transformation is C79, and wrong for blocked elements that need one (`C79_refuted_eval`); that a point is in the cell is the caller's business. Arrays of different lengths are refused, except if the array of cells is empty: then nothing is checked and the array is returned as it was (`C77_refuted_no_cells`), in Python with undefined values; this is outside of the property. Exact arithmetic.

Theorems: `C77_eval`, `C77_interpolated`, `C77_eval_refuses`

### C78 Interpolation between non-matching meshes takes the values of the other function

Status: **partial**. `Model/InterpolateOther`: `scatter_values` with neighbours, sizes, bucket fill of output positions and exchange of flat buffers over all ranks; `interpolate` with `PointOwnershipData` from `Model/PointOwnership`. `Spec/InterpolateOther`: `NthOcc` (the k-th row for a rank), `PointValue`. Proof: the sorted array of source ranks is cut into groups; both sides list the rows for each pair of ranks in the same order.

The claim that functions with another number of components are refused is false: sizes are never compared. A scalar function goes into the first component of a vector (`C78_refuted_value_size`), a vector function into a scalar element writes outside of the array of values (`C78_refuted_value_size_out`). Restrictions of elements are those of C76 (`C76_data_partial`). Proved otherwise: C51 gives the rank and cell of each point, C77 the values there, `C78_scatter` their way back, C76 the dofs. Candidates from bounding box trees (C49), distances, and basis functions at the points (pull back) are inputs; MPI neighbourhood exchange is trusted. Exact arithmetic.

Theorems: `C78_scatter`, `C78_interpolate_partial`, `C78_points`, `C78_refuted_value_size`, `C78_refuted_value_size_out`

### C79 Dof transformations act on the dofs of each sub-element

Status: **partial**. `Model/DofTransform`: elements as an inductive type, functions on flat arrays with offsets, subspans out of range are errors. `Spec/DofTransform`: matrix of an element, products from the left and the right. Proof: mutual induction over elements and lists of sub-elements; sums split by blocks.

From the left the claim is proved for all elements. From the right it is false for blocked elements whose matrix is not symmetric, as for faces that are rotated (`C79_refuted_right_blocked`: the left function with the same type is used on the rows, which is the transpose; `C79_right_blocked` says exactly what is done), for mixed elements with a blocked sub-element (`C79_refuted_right_mixed_blocked`: the length of rows is computed from what is left of the array), and for mixed elements in general whatever Basix does (`C79_refuted_right_mixed`: for rows of different length it gets the same arguments). Proved for Basix elements (with what is trusted of Basix, `BasixRight`) and blocked elements with symmetric matrices. Evaluation and others are wrong for blocked elements that need transformations (`C79_refuted_eval`: the function for the whole element is applied to values of the scalar element and reaches beyond them), right for all others (`C79_eval`). Exact arithmetic.

Theorems: `C79_left`, `C79_left_scalar`, `C79_right_blocked`, `C79_right_partial`, `C79_eval`, `C79_refuted_right_blocked`, `C79_refuted_right_mixed_blocked`, `C79_refuted_right_mixed`, `C79_refuted_eval`

### C80 Discrete operators give the dofs of the interpolated function, its gradient or its curl

Status: **partial**. `Model/DiscreteOperators`: matrices of cells, transformation of rows, rows set to zero if added before or not owned, insertion by adding or setting. `Spec/DiscreteOperators`: row times vector, expansion, conformity, curl. Proof: a row of the matrix of a cell times the dofs of the cell is the dof functional by linearity; invariant over cells that a row is that of the first cell. For gradient and curl the entries of different cells are the same, by conformity for unit vectors.

The claim that there is an interpolation matrix between any two spaces is false: block sizes 2 and 3, and those above 3, are refused (`C80_refuted_blocks`), and for a symmetric matrix space as target values are written outside of the array of the cell (`C80_refuted_symmetric`). Otherwise proved for elements that are not symmetric and have the same number of components (not compared by the code), with the hypotheses of C76 on elements and linear maps and transformations (`Linear`). For gradient and curl it is a hypothesis that the derivative, pulled back, is the derivative on the reference cell (chain rule), for the gradient without a transformation of V0 (the code applies none, so the matrix is wrong for scalar elements that need one, such as serendipity elements of higher degree), and that derivatives of V0 are in V1 (`Conform`). The transformation of basis functions of V0 is in the given values (C79 says when it is right). Tabulated values are exact. The cell loops are those over owned cells; that each owned dof is in an owned cell is not proved.

Theorems: `C80_matrix_partial`, `C80_same_as_interpolate`, `C80_gradient`, `C80_curl`, `C80_refused`, `C80_refuted_symmetric`, `C80_refuted_blocks`

### C81 Dirichlet conditions on a sub-space take the values of the collapsed space at the same dofs

Status: **partial**. `Model/LocatePairs`: both functions for two spaces, coordinates of dofs in both layouts, positions out of range are errors. `Spec/LocatePairs`: same place, matching of two spaces over processes, point of a dof. Proof: sorting, removing repetitions and filtering of two lists is that of the list of pairs when the pairs are one-to-one; invariants of the copying loops.

That all processes agree is false for the reason of C48 (`C81_refuted_second_neighbour`); it holds if what is found is found by the owner too (`C81_consistent_partial`), and the owner always gets what any process finds (`C81_owner`). All else is proved, under the hypothesis that the two spaces correspond (`Match`: dofs at the same place are one-to-one, with equal global numbers on all processes, and a process has both or none; C69 is about collapsed spaces) and that the closure of an entity looks the same from its cells. Geometrically: markers are functions of a point, all cells of a dof agree on its point (`DofPoint`), meshes have one cell type, exact arithmetic; no exchange is needed or made, so agreement of processes is agreement on points.

Theorems: `C81_local`, `C81_pairs`, `C81_owner`, `C81_consistent_partial`, `C81_same_place`, `C81_set`, `C81_values`, `C81_coordinates`, `C81_geometrical`, `C81_geometrical_pairs`, `C81_refused`, `C81_refuted_second_neighbour`

### C82 The Newton solver returns the first iterate that meets the stopping test

Status: **partial**. `Model/Newton`: `solve` as a loop on a state with the vector of the user, residual, increment and counters; exceptions with the state they leave behind. `Spec/Newton`: Newton's method as a sequence and the stopping test. Proof: invariant of the loop that the state is that of step k and no earlier step meets the test.

Which iterate is returned, counts, exceptions and the absolute test are proved for all solvers. The relative test is false as documented: `residual0()` is the norm of the first increment also for the criterion 'residual', so residuals are compared with rtol times an increment (`C82_refuted_relative`: convergence is reported although the residual fell by a factor of 4 only with rtol = 1/100; multiplying the equation by a constant changes the number of steps). `C82_residual` says what holds. Without absolute tolerance a start at the exact solution ends in an exception (`C82_refuted_exact_start`). PETSc is trusted (vectors, matrices and linear solver are given functions), exact arithmetic, division by zero is never below a tolerance.

Theorems: `C82_solve`, `C82_residual`, `C82_incremental`, `C82_linear`, `C82_refused`, `C82_python`, `C82_refuted_relative`, `C82_refuted_exact_start`

### C83 Pulling points back to the reference cell undoes pushing them forward

Status: **partial**. `Model/PullBack`: the working array as a memory with views at the addresses of the code, so that overlapping parts would change each other; kernels of `Model/SmallMatrix`. `Spec/PullBack`: the map of a cell, its derivative, least squares, Newton's method as a sequence. Proof: reading back what was written, parts apart by arithmetic; a left inverse R of J with J R symmetric is that of least squares (C34); induction over iterations and points.

Proved for Jacobians of full rank at the points visited (otherwise the code divides by zero), in exact arithmetic, with any function for the square root. False for a negative maxit: there is no exception and the result is the origin (`C83_refuted_negative_maxit`). Convergence of Newton's method is proved for cells with an affine map only. Tabulation by Basix is a given function. A kernel is assumed to read its arguments before it writes (its parts of the working array are disjoint).

Theorems: `C83_regions`, `C83_push`, `C83_newton`, `C83_not_converged`, `C83_affine`, `C83_pull_push`, `C83_push_pull`, `C83_parallelogram`, `C83_refused`, `C83_determinant`, `C83_refuted_negative_maxit`

### C84 Block vectors and matrices hold the fields one beside the other

Status: **partial**. `Model/BlockSystem`: the loops over slices as in Python (assignment to a slice with wrong length is an error), offsets, index sets, local-to-global maps from `Model/StackMaps`. `Spec/BlockSystem`: fields as pairs of owned and ghost parts and their concatenation. Proof: loop invariants on the list of fields; numbers by C30; entries of the block matrix and of a matrix of one form correspond one to one.

False for the diagonal if two fields have the same space object: `insert_diagonal` is called for every block whose form has the same test and trial space, so entries beside the diagonal are set as well and the matrix becomes singular (`C84_refuted_shared_space`); `C84_diagonal` says what is set, `C84_diagonal_partial` what holds for different spaces. All else is proved. PETSc is trusted: order of entries of ghosted vectors, local sub-matrices, sums of values from different processes. What forms, lifting and conditions do with an array of one field are given functions that keep its length (see C13 to C16, C70). Nests are modelled in `assign` only.

Theorems: `C84_layout`, `C84_local_vectors`, `C84_assign`, `C84_assemble`, `C84_lifting`, `C84_set_bc`, `C84_numbers`, `C84_element`, `C84_matrix`, `C84_missing_diagonal`, `C84_empty`, `C84_diagonal`, `C84_diagonal_partial`, `C84_refuted_shared_space`

### C85 Conditions reach exactly the blocks that they constrain

Status: **partial**. `Model/BlockSpaces`: spaces as objects in a store, made by the steps of a program, with root id, component, element and dofmap (`Model/SubSpace`); loops over arrays of forms as in the code; iterables that can be read once or many times. `Spec/BlockSpaces`: where a space is from, by induction on the program, and what a common space is, by membership. Proof: invariants of the store, C68 for the dofs, one lemma on collecting spaces for both layers.

False for conditions given by a generator, although any `Iterable` is asked for: the first block consumes it and all others get no conditions (`C85_refuted_generator`); proved for lists. A condition goes to one block only if no two blocks have parts of the same space (`C85_one_block_partial`), else to both (`C85_refuted_shared_space`). The random numbers of spaces are assumed to be different; sub-spaces are extracted one index at a time, as in Python (for several at once see C68). NumPy's conversion of nested lists is modelled by its result.

Theorems: `C85_contains`, `C85_dofs`, `C85_rows`, `C85_columns`, `C85_list`, `C85_refused`, `C85_cpp`, `C85_ragged`, `C85_bcs`, `C85_block`, `C85_one_block_partial`, `C85_refuted_shared_space`, `C85_refuted_generator`

### C86 The direct solver gets the assembled matrix and its factors are freed once

Status: **partial**. `Model/SuperLu`: the three loops with their write position into arrays of fixed size, `fill_n` and `inclusive_scan`, size checks, the solver object as a state with the sets of factors that the library holds. `Spec/ScalarMatrix`: entries of the matrix of blocks and of the scalar parts as sums over processes, form of the parts, direct solver, legal use. Proof: each loop writes the concatenation of the scalar rows; row pointers are their prefix sums, so cutting gives the rows back; sums over blocks; invariant that the flag says whether factors are held.

SuperLU_DIST itself is trusted: that it solves is a hypothesis of `C86_solve_partial`, and what it does with factor arrays is taken from the comments in the code. The documented way to solve with further right-hand sides is refused (`C86_refuted_documented_option`: the option is `Fact`, not `Factor`), and `set_A` with an unknown last argument throws after the matrix has been replaced (`C86_refuted_set_A_throws`). The square root of the number of processes is exact. All else is proved.

Theorems: `C86_refused`, `C86_layout`, `C86_entries`, `C86_rows`, `C86_matrix`, `C86_solve_partial`, `C86_solve_refused`, `C86_grid`, `C86_factors`, `C86_set_A`, `C86_refuted_documented_option`, `C86_refuted_set_A_throws`

### C87 Functions in files for visualisation stand at their own points

Status: **partial**. `Model/FunctionOutput`: the loops of the three writers with checked reads and writes, checks and choice of the space for the points. `Spec/FunctionOutput`: the form in which viewers expect values, what it means that a grid has the points of a space and a field the values of a function. Proof: all loops write rows of a fixed length; one lemma on such loops; rows in the file by prefix sums.

False in general, with counterexamples: VTK writes vectors of two components on three-dimensional meshes without padding (`C87_refuted_vtk_unpadded`) and throws away values carried over from another dofmap on other meshes (`C87_refuted_vtk_dofmaps`); all writers put matrices with less than three columns into wrong entries (`C87_refuted_vtk_tensor`, `C87_refuted_xdmf_tensor`); XDMF does not refuse vector sub-functions and reads out of range (`C87_refuted_xdmf_sub`); VTX makes the points from the first function even if it is constant (`C87_refuted_vtx_first`), does not check dofmaps in release builds (`C87_refuted_vtx_dofmaps`) and writes constants in the order of dofs (`C87_refuted_vtx_cells`). Proved where none of this applies, for elements without symmetry. The order of nodes is a given permutation (C64), positions of nodes are given (C83), XML and names are left out.

Theorems: `C87_vtk_partial`, `C87_vtk_constants_partial`, `C87_vtk_accepts`, `C87_xdmf_nodes_partial`, `C87_xdmf_cells_partial`, `C87_xdmf_accepts`, `C87_vtx_partial`, `C87_vtx_accepts`, `C87_refuted_vtk_unpadded`, `C87_refuted_vtk_dofmaps`, `C87_refuted_vtk_tensor`, `C87_refuted_xdmf_tensor`, `C87_refuted_xdmf_sub`, `C87_refuted_vtx_first`, `C87_refuted_vtx_dofmaps`, `C87_refuted_vtx_cells`

### C88 Marking by the greatest value marks the right entities on all processes

Status: **partial**. `Model/MarkMax`: local maximum, or the lowest number if there are no entities, reduction over ranks, test and loop. `Spec/MarkMax`: values of all ranks. Proof: the reduced number is a value and a bound for all of them; invariant of the loop.

The documented criterion `marker_i ≥ θ max(marker)` is false for equality (`C88_refuted_documented`); if all values are zero it holds for all entities, and none is marked (`C88_refuted_zero`). What the code does is proved in full, in exact arithmetic: rounding of `theta * max` and NaN are not modelled; all processes pass the same `theta`.

Theorems: `C88_marked`, `C88_distribution`, `C88_greatest`, `C88_monotone`, `C88_refused`, `C88_documented_partial`, `C88_refuted_documented`, `C88_refuted_zero`

### C89 Expressions evaluate to the values they stand for on each entity

Status: **partial**. `Model/TabulateExpr`: loop over entities with its buffers as checked copies, choice of the transformation, packing from `Model/Coefficients` (C75), checks of Python and C++. `Spec/TabulateExpr`: data of an entity by relations on the mesh and the functions, what a kernel stands for. Proof: one lemma on loops that write blocks, used for coordinates and for the result; C75 for coefficients and constants, C79 for the transformation.

Proved for all expressions without arguments, and for arguments whose elements need no dof transformation or one that works from the right (C79). False for arguments of blocked elements with transformations that are not symmetric (`C89_refuted_blocked`), of mixed elements with transformations (`C89_refuted_mixed`), and for arguments from vector-valued sub-spaces, where the array for the kernel is too small (`C89_refuted_sub_argument`). Generated kernels are trusted to add the numbers that they stand for; arithmetic is exact; one cell type.

Theorems: `C89_eval_partial`, `C89_cpp_partial`, `C89_apply`, `C89_refused_entities`, `C89_refused_array`, `C89_refused_data`, `C89_refuted_sub_argument`, `C89_refuted_blocked`, `C89_refuted_mixed`

### C90 LinearProblem.solve returns the solution of the discrete problem, each time

Status: **partial**. `Model/LinearProblem`: the steps of `solve` on all ranks, composed from the models of assembly, lifting, scatters, pattern and conversion. `Spec/LinearProblem`: what a solution is, what is assumed of the library. Proof: C45 (matrix), C46 (lifting, set), C86 (what the library gets), C47 (system and solution), C10 (ghosts).

Proved under the condition that the library never returns a negative code: negative codes are taken as success (`C90_refuted_negative`). A function `u` is refused with the default `dtype` of the same scalar type (`C90_refuted_dtype`). SuperLU_DIST is an arbitrary function that solves systems when it returns 0; arithmetic is exact; one rank's exception is taken as an exception of the call; `jit` and the creation of the objects are not modelled (the sparsity pattern is that of C18/C45).

Theorems: `C90_solve_partial`, `C90_history`, `C90_unchanged`, `C90_errors`, `C90_dtype`, `C90_dtype_class`, `C90_refuted_dtype`, `C90_refuted_negative`

### C91 NonlinearProblem gives SNES the residual and Jacobian of the problem with conditions, and returns what SNES finds

Status: **proved**. `Model/NonlinearProblem`: the callbacks and `solve` on all ranks, composed from the models of assembly, lifting, conditions and scatters; SNES as a tree of requests. `Spec/NonlinearProblem`: residual and matrices as functions of global vectors. Proof: C46 for the residual; element matrices of all ranks and the diagonal by induction over ranks; induction over the tree for `solve`.

For one form (several fields are C107). PETSc is trusted: ghost updates are the scatters of C10/C11, values added to a matrix by ranks are summed at global indices, entries outside the preallocated pattern are not an error (the pattern is C18/C45), the Jacobian is used as preconditioner if no form is given. SNES is an arbitrary program that sees owned entries only; whether it converges is not claimed. Arithmetic is exact; a form depends on `u` through the local array only.

Theorems: `C91_residual`, `C91_jacobian`, `C91_zero`, `C91_newton`, `C91_steps`, `C91_solve`, `C91_solution`

### C92 Meshes from Gmsh models have all cells, nodes and tags of the model

Status: **partial**. `Model/Gmsh`: the loops over groups, entities and blocks with Python dictionaries, the checks, what each rank passes on, outcomes per rank (done, raised, waiting). `Spec/Gmsh`: a mesh as a list of elements and what the API returns for it, table of types from the manual. Proof: the loops as one list of marked elements in blocks; counting for cells that are tagged once; C65 for the order of nodes, C73 for the distribution of tags.

The Gmsh API is trusted to return what `Spec/Gmsh.Api` says; creation and distribution of the mesh are C70 and others, not composed here. Tags inherit the conditions of `C73_tags_partial` (as many input nodes as nodes of the mesh), and are stated for entities whose corners come first, as in Gmsh. It is proved what holds if `model_to_mesh` gets to the end, and that it gets there for an example, not for which models it does. False as documented: some errors are raised on one rank while the others wait (`C92_refuted_waits`, `C92_refuted_alone`), pyramids are refused (`C92_refuted_pyramid`), groups of the same name are lost (`C92_refuted_names`), hexahedra of degree 3 are listed but refused (`C92_refuted_type92`).

Theorems: `C92_extract`, `C92_checked`, `C92_geometry`, `C92_groups`, `C92_table`, `C92_mesh`, `C92_tag_input`, `C92_tags_partial`, `C92_refuted_waits`, `C92_refuted_alone`, `C92_refuted_pyramid`, `C92_refuted_names`, `C92_refuted_type92`

### C93 Size, midpoint and normal of mesh entities are those of their points

Status: **partial**. `Model/EntityGeom`: the loops over rows of `entities_to_geometry` (`Model/Submesh`). `Spec/EntityGeom`: points of an entity by relations, diameter, mean, inner product and determinant. Proof: induction over the loops; field identities for normals.

Arithmetic is exact and the square root is one; meshes with one cell type; non-degenerate entities for normals. `h` is documented as a distance between vertices, but takes all nodes (`C93_refuted_h_vertices`); it is proved for nodes. The sign of a normal depends on the cell found first (`C93_refuted_sign`). Normals of quadrilaterals and of curved faces are those of the plane through the first three corners.

Theorems: `C93_h`, `C93_midpoints`, `C93_edge_normals`, `C93_face_normals`, `C93_same`, `C93_refused`, `C93_zero`, `C93_refuted_h_vertices`, `C93_refuted_sign`

### C94 Plot data have each entity as one VTK cell with its nodes at their places

Status: **partial**. `Model/VtkPlot`: `argsort`, selection of columns, the flat array, tables of types. `Spec/VtkPlot`: places of nodes from `Spec/CellNodes`, flat VTK cells, VTK's table of types. Proof: sorting the indices of a permutation gives its inverse; C64 for `perm_vtk`; C93 for `entities_to_geometry`.

Pyramids of degree two get a type that has five nodes (`C94_refuted_pyramid`); spaces of degree one on prisms and pyramids end in a `KeyError` (`C94_refuted_first`). Types are proved for Lagrange cells, not for the 20-node hexahedron and the 15-node prism. That the nodes of the closure of an entity, in increasing order, are in DOLFINx' order for the shape of the entity is a property of Basix and not proved. Coordinates are passed on as they are.

Theorems: `C94_mesh`, `C94_space`, `C94_types`, `C94_refused`, `C94_refuted_pyramid`, `C94_refuted_first`

### C95 compute_distance_gjk returns the shortest vector between two convex bodies

Status: **partial**. `Model/Gjk`: all cases of `nearest_simplex`, `support`, the iteration with its exits, over any ordered field. `Spec/Gjk`: convex hulls by weights, vectors between them, shortest up to a tolerance. Proof: the coordinates computed satisfy the conditions of a nearest point; where the code falls through to the last case, the nearest point (it exists for real numbers, by compactness) must be there, by complementarity. Invariant of the loop: the simplex is independent, all its points are at the level of the current point, which is inside. C01 for threads.

Exact arithmetic (real numbers) instead of floating point. The full claim is false: with a tie the result is not even between the bodies (`C95_refuted_tie`); so it is proved without ties, except for bodies with a common point, which have none (`C95_apart`). It needs the diagonal of a local array, which is never set, not to be positive (`C95_refuted_uninitialised`); for the extended type of Boost it is zero. The tolerance is absolute, so results for small bodies can be far off (`C95_refuted_small`). 15 iterations need not be enough (`C95_refuted_limit`); it is not proved for which bodies they are. The exception of a body handled by another thread ends the program; this is not modelled.

Theorems: `C95_distance_partial`, `C95_only_limit`, `C95_apart`, `C95_threads`, `C95_refuted_tie`, `C95_refuted_uninitialised`, `C95_refuted_small`, `C95_refuted_limit`

### C96 Points inside a cell collide with it, and cells found are near the point

Status: **partial**. `Model/Collide`: loops over entities, points and candidates with GJK from `Model/Gjk`, nodes of entities as in `Model/EntityGeom`. `Spec/Collide`: nodes of entities by relations, squared distance, sums that the C++ standard allows. Proof: C95 for each pair; bodies with a common point have no ties; induction over the loops.

Exact arithmetic, as in C95. That no candidate containing the point is missed is proved without conditions on the position; distances, and that cells found are near, without ties (C95). `compute_first_colliding_cell` is proved for a `std::reduce` that goes from left to right, as libraries do; the operation given to it is neither commutative nor associative, and with another order that the standard allows a cell at distance 5 is returned (`C96_refuted_reduce`). The tolerance of `compute_colliding_cells` is absolute (`C96_refuted_small`). It is not proved that GJK ends within its 15 iterations. Candidates are given (their computation by trees is C49).

Theorems: `C96_vector_partial`, `C96_squared_partial`, `C96_only_limit`, `C96_colliding_partial`, `C96_first_partial`, `C96_refuted_reduce`, `C96_refuted_small`

### C97 Searching points with a bounding box tree finds every cell that contains them

Status: **partial**. `Model/PointSearch`: constructor of the tree from mesh entities, loop over points with its offsets, composed with `Model/BBTree`, `Model/EntityGeom`, `Model/Collide`. Proof: a point of a hull is between the points in each coordinate, hence in the box; counting through the permutation of C49 and the sublists of C96.

The composition of C49 and C96. That containing cells are found is proved without conditions on the position; that listed cells are near, without ties (C95). It is proved when the search gets to the end, and that, without ties, only the limit of GJK's iterations can stop it, unless the tree has one cell with a number other than 0 (`C97_refuted_single`, see C49). Cells are hulls of nodes: a point of a curved cell outside of this hull is not found (`C97_refuted_curved`). The closure of a cell in the coordinate element is assumed to have all its dofs.

Theorems: `C97_search_partial`, `C97_ends_partial`, `C97_refuted_curved`, `C97_refuted_single`

### C98 The communication graph has an edge for each pair of ranks that exchange values, with their number

Status: **partial**. `Model/CommGraph`: `weights_src`, `weights_dest`, `rank_type` with `set_intersection`, gathering at displacements, the constructor with its checks, the text character by character. `Spec/CommGraph`: ghosts in the owned range of a rank; `Spec/Json`: grammar of RFC 8259. Proof: counting by `lower_bound` equals the block sizes of the scatterer (C10); gathering by induction over ranks; induction over the text.

All of the claim is proved for the C++ function, except that other ranks get an empty graph: they get a node for each rank, with sizes zero and no edges (`C98_other`, `C98_refuted_empty`). Python's `comm_graph` does not pass `root` on, so that the graph arrives on rank 0 (`C98_refuted_root`). MPI's gather, neighbourhood exchange and splitting are assumed to work as specified; JSON texts are given by a grammar, of which uniqueness of the value is not proved. Overflow of `int32` is not modelled.

Theorems: `C98_graph`, `C98_data`, `C98_weights`, `C98_rank_type`, `C98_json`, `C98_text`, `C98_other`, `C98_refuted_root`, `C98_refuted_empty`

### C99 A timer measures the time it was running since the last start and is logged at most once

Status: **partial**. `Model/Timer`: members, each method, destructor, sequences of calls, with-blocks, the map of the logger. `Spec/Timer`: ticks at which the last call of start, stop or resume is not stop, counted from the last reset. Proof: invariant that accumulated time plus time since start is this number at any later time, by induction over calls.

The last sentence of the claim, which is in the documentation of the destructor, is false: a timer that is stopped when it is destroyed is not logged (`C99_refuted_stopped`). The second with-block of one timer is not logged either (`C99_refuted_twice`). All else is proved. The clock is assumed not to go back (`high_resolution_clock` need not be steady); sums are exact instead of `double`; each call reads the clock once, at one time.

Theorems: `C99_elapsed`, `C99_log`, `C99_once`, `C99_with`, `C99_timing`, `C99_refuted_stopped`, `C99_refuted_twice`

### C100 list_timings prints a line for each timed task with reduced times

Status: **partial**. `Model/TimingTable`: `set`, `get`, `reduce` with the gathered string of keys, its splitting by `getline` and the running pointer into the values, `timing_table`, the entries that `str` collects. `Spec/TimingTable`: lists of totals and means of the ranks that have the task, and what their reduction is. Proof: gathering as in C98; splitting inverts joining by induction; the merged map holds for each key the fold over the ranks.

Proved where every task has been timed on rank 0 too. Otherwise nothing is printed: whenever rank 0 has timed some task, but not one that another rank has timed, formatting throws on rank 0 (`C100_missing`, `C100_refuted_missing`). The last sentence is false: the sum is divided by the number of all ranks, so that a task of rank 0 alone has an average below its minimum (`C100_refuted_average`). The order of lines, titles and layout of the text are not modelled; names must not contain the zero character (as names of C strings); sums are exact instead of `double`; MPI's gather is assumed to work as specified.

Theorems: `C100_list_partial`, `C100_missing`, `C100_refuted_missing`, `C100_refuted_average`

### C101 Dense copies, SciPy matrices and the norm of a matrix agree with its entries

Status: **proved**. `Model/MatrixView`: the loops of `to_dense` writing into an array, slices of `to_scipy`, accumulation and reduction of `squared_norm`. `Spec/MatrixView`: sums over the positions of a row with the global column, acceptance and entries of SciPy's formats. Proof: positions written are distinct by mixed radix numbers and injectivity of the column map; rows hold a column once; C18 for the global matrix; `C101_pattern` from C14.

Compact block mode (with block size 1 also expanded mode, whose arrays are those of a scalar pattern). Arithmetic is exact; SciPy's reading of the arrays is given in the specification, and that the data are shared is not modelled.

Theorems: `C101_dense`, `C101_scipy`, `C101_norm`, `C101_norm_global`, `C101_pattern`

### C102 Just-in-time compilation on several ranks succeeds or fails on all of them together, rank 0 first

Status: **partial**. `Model/MpiJit`: transition system with a program counter per rank, one step per communication or begin or end of a compiler call. `Spec/MpiJit`: calls of a rank in the trace, the three common endings. Proof: invariant over all reachable states with three phases (before the broadcast, after failure, after success); a sum of remaining steps decreases.

Proved for calls that return or raise an `Exception`. `KeyboardInterrupt` and `SystemExit` are not caught by `except Exception`: if rank 0's call ends so, the other ranks wait in the broadcast for ever (`C102_refuted_interrupt`). Broadcast and reduction are assumed to work as MPI specifies; messages of exceptions are three constants; that compiler calls come to an end is assumed (a call that does not would be an execution that stops in it).

Theorems: `C102_order`, `C102_all_partial`, `C102_ends`, `C102_refuted_interrupt`

### C103 Interpolating the geometry of a mesh keeps its points

Status: **proved**. `Model/InterpGeometry`: the function, the constructor and `dofmaps` of `Geometry`, with `tabulate_dof_coordinates` of C81. `Spec/InterpGeometry`: image of a reference point under the map of a cell, cells agree at shared dofs, nodal elements, an element contains another. Proof: `C81_coordinates` for the points; rows of the flat dofmap; interpolation of each old basis function and exchange of sums.

The dofmap and index map of the space that `create_functionspace` makes are parameters with the right sizes (what they are is C42). Elements are given by nodes and basis functions, exact arithmetic. Building of the UFL domain in Python is not modelled.

Theorems: `C103_geometry`, `C103_ranks`, `C103_refused`

### C104 Communicators held by objects are freed exactly once, and never those of the caller

Status: **proved**. `Model/CommObject`: constructors, destructor and move assignment as sequences of `MPI_Comm_dup`, `MPI_Comm_free` and changes of the member. `Spec/CommObject`: legal programs, with the communicators that the program owns. Proof: invariant over all executions that each live communicator has exactly one owner.

One rank: that all ranks duplicate and free in the same order, as MPI asks, is up to the program. `MPI_Comm_dup` gives a handle that has not been used before (handles of freed communicators may be reused by MPI; then handles stand for communicators), and MPI fails only for communicators that do not exist. An object moved to itself loses its communicator, which is freed (`C104_self`; the standard leaves the value open).

Theorems: `C104_no_error`, `C104_owned`, `C104_freed`, `C104_holds`, `C104_self`

### C105 A linear problem with PETSc hands its solver the right system and returns its solution

Status: **partial**. `Model/PetscLinear`: `solve` with PETSc vectors and matrices as in C91, KSP as an arbitrary function that may raise; the options database as a function of names. `Spec/PetscLinear`: the system by global dofs; solution as in C90. Proof: `petsc_matrix` of C91, `C46_lifting`, `C46_set`; elimination of constrained columns as in C47.

What is said of the system and the solution is proved in full. Of the options the last sentence fails: an option that the user has set under the same prefix and that is passed as well is deleted afterwards (`C105_refuted_lost`), and if `setFromOptions` raises, the passed options stay in the database (`C105_refuted_left`; the pushed prefix stays as well). `C105_tidy` is the case in which the claim holds. Problems with several fields are C106; convergence is the matter of the solver; exact arithmetic; an entry outside the preallocated pattern is not an error here. Without options (`None`) the solver does not read the database at all, as stated in `C105_options_partial`.

Theorems: `C105_system`, `C105_solution`, `C105_history`, `C105_prefix`, `C105_options_partial`, `C105_tidy`, `C105_refuted_lost`, `C105_refuted_left`

### C106 A linear problem with several fields hands its solver the right block system and returns its solution

Status: **proved**. `Model/PetscBlock`: `solve` by field: each block with its form assembled with the markers of both spaces, identity in diagonal blocks, lifting over all forms of the row, scatter, prescribed values, KSP as an arbitrary function that may raise. `Spec/PetscBlock`: the block system by global dofs and its solutions. Proof: `petsc_matrix` of C91 for diagonal blocks and the element sum for others; `C46_lifting` for a list of forms; elimination of constrained columns by blocks.

The fields have different spaces, in one mesh; conditions are sorted by field as in C85 and entries of block vectors and matrices lie as in C84, so that nest and block (mpi) matrices are the same here. Arrays with a row or a column of `None` are not covered (`forms` and `preForms` of `ProblemOk`; the code raises). Convergence is the matter of the solver; exact arithmetic; an entry outside the preallocated pattern is not an error here. Options are those of C105.

Theorems: `C106_system`, `C106_equivalent`, `C106_solution`, `C106_history`, `C106_refused`

### C107 A nonlinear problem with several fields gives its solver the right residuals and block Jacobians

Status: **proved**. `Model/BlockNonlinear`: both callbacks and `solve`, composed from `Model/PetscBlock` with the forms packed at the current arrays; SNES as a tree of requests. `Spec/BlockNonlinear`: residuals and block matrices as functions of global vectors. Proof: packed forms are a linear problem with several fields (C106) and depend on the global vectors only; `C46_lifting` and `C46_set` with `x0` and `alpha = -1`; rows of the block matrix; induction over the tree.

The fields have different spaces, in one mesh; vectors and matrices by field as in C106, with the same assumptions about PETSc. SNES is an arbitrary program that sees owned entries only; whether it converges is not claimed. Arrays with a row or column of `None` are not covered. Arithmetic is exact; a form depends on the functions through their local arrays only.

Theorems: `C107_residual`, `C107_zero`, `C107_newton`, `C107_jacobian`, `C107_solve`, `C107_solution`

### C108 Sub-functions are views of their function; copies and collapsed functions are not

Status: **partial**. `Model/FunctionView`: vectors by reference, functions as space and reference, one function per call. `Spec/FunctionView`: every function has values of its own and a root; writing writes into all functions with the same root. Proof: refinement, with the invariant that functions have the same vector exactly if they have the same root; dofs of components differ by C42 (entity and place on the entity), with blocks by remainders.

All but the claim about `split` is proved in full. `split` refuses functions with exactly one sub-function (a mixed element with one sub-element or a vector with one component), although `sub(0)` exists (`C108_refuted_split_one`), and for functions without sub-functions it returns an empty tuple where an exception is due (`C108_refuted_split_none`). One rank, one cell type; the space and map that `DofMap::collapse` gives are a parameter (what they are is C69), and the values that interpolation computes are given (C76). Names, scalar types and negative indices are left out.

Theorems: `C108_script`, `C108_view`, `C108_frame`, `C108_copy`, `C108_collapse`, `C108_interpolate`, `C108_disjoint`, `C108_others`, `C108_subspace`, `C108_split_partial`, `C108_refuted_split_one`, `C108_refuted_split_none`

### C109 Every step of a time series in a VTKHDF file can be read back

Status: **partial**. `Model/VtkSeries`: `write_data` in the order of the code, with the file as it is when an exception is thrown. `Spec/VtkSeries`: what a reader finds at a step. Proof: closed form of the file after any list of calls, by induction; processes that write one after the other behind the rows there are.

Proved for series of one kind of data and one width on processes that all have points (or cells), with less than 2³¹ points in all. The code refutes each of these restrictions: a process without points divides by zero (`C109_refuted_empty`); the second kind of data in a file ends with an exception after `NSteps` has been increased (`C109_refuted_mixed`); a call with another width changes the width of all earlier steps (`C109_refuted_width`); the number of points of the mesh is added up in `int` (`C109_refuted_size`). HDF5 is the list model of C66 together with `H5Dset_extent`; attributes `NumberOfComponents` and `Vectors` are left out.

Theorems: `C109_series_partial`, `C109_refuted_empty`, `C109_refuted_mixed`, `C109_refuted_width`, `C109_refuted_size`

### C110 A compiled form can be given its data afterwards, in any order

Status: **proved**. `Model/CreateForm`: the sort of lists that are shared with the caller, dictionaries by name, lookup by name in C++, checks, and the loop over integrals of C60. `Spec/CreateForm`: which data the form has. Proof: lists by reference stay permutations and are sorted; `lower_bound` in sorted lists; `attach_spec` of C60.

What FFCx gives is assumed: positions within the coefficients of the UFL form, names `w0, …` and `c0, …`, no id twice (`IsCompiled`). Each id of an integral has exactly one pair in the lists (`Fitting`); without one the form cannot be assembled, which is `C60_refuted_gap`. One cell type; entity maps, the geometry's hash and scalar types are left out. The lists of the caller are sorted in place, since the copy of the dictionary has the same lists.

Theorems: `C110_create`, `C110_order`, `C110_lists`, `C110_again`, `C110_missing`, `C110_checked`, `C110_as_form`

### C111 PETSc objects are released exactly once

Status: **partial**. `Model/PetscHandles`: one statement of a program at a time, on counts of references, the program's own references and the pointers of C++ objects. `Spec/PetscHandles`: who has an object and when it must be gone. Proof: the count is the sum of the program's references and the pointers of living objects, by induction over the program.

Proved in full for vectors, operators, matrices, linear solvers and eigensolvers (`C111_wrappers`), and for Newton solvers in programs that do not move them and set each of `F`, `J`, `P` once (`C111_newton_partial`). The code refutes the rest: the defaulted move constructor and move assignment of `NewtonSolver` copy its raw pointers, so that two destructors release one reference (`C111_refuted_move`, `C111_refuted_taken`, `C111_refuted_assign`); `setF`, `setJ` and `setP` forget the object set before without releasing it (`C111_refuted_set`). PETSc is modelled by its counts of references; references among PETSc objects (a KSP and its operators) are left out.

Theorems: `C111_wrappers`, `C111_newton_partial`, `C111_refuted_move`, `C111_refuted_taken`, `C111_refuted_assign`, `C111_refuted_set`

### C112 Options of just-in-time compilation follow their order of priority, and calls do not disturb each other

Status: **partial**. `Model/JitOptions`: lists and dictionaries as objects with addresses, the cache of `_load_options`, the updates of `get_options` one after the other. `Spec/JitOptions`: last value for a key in the listed sources; the files seen by the first call that could read them, from the program alone. Proof: the cached dictionaries are never among those the program has, and values keep their looks when objects are added; by induction over the program.

Proved for all programs that change no list in place. The code refutes the rest: the copy is shallow, so the list of `cffi_extra_compile_args` that a call returns is the list of the defaults (or of the cached file), and appending to it changes the options of all later calls (`C112_refuted_append`); a list in the dictionary given to the call is shared in the same way (`C112_refuted_prio`). FFCx's own options, the order of keys and the names of files beyond joining with `/` are left out; `Path(str(v)).expanduser()` is an arbitrary function.

Theorems: `C112_options_partial`, `C112_refuted_append`, `C112_refuted_prio`

### C113 Distances to many bodies do not depend on the number of threads

Status: **partial**. `Model/DistThreads`: one body of one thread at a time, in the order of any list of thread numbers. `Spec/DistThreads`: one distance per body. Proof: each thread has written the rows of its range up to its place; the ranges of C01 cover all bodies and do not overlap.

Proved in full for bodies that all have a distance; exceptions for bodies that the calling thread takes. The code refutes the rest: an exception that leaves another thread ends the whole program, for every interleaving (`C113_refuted_exception`). `compute_distance_gjk` is an arbitrary function here (C95 is about it); the three components of a row are written at once; the move of `results` is taken to be elided.

Theorems: `C113_distances`, `C113_threads`, `C113_exception_partial`, `C113_refuted_exception`, `C113_bad`

### C114 A mesh of points has exactly the given points, each on one process

Status: **proved**. `Model/PointMesh`: NumPy arrays as memory with strides, the branch for contiguous arrays and the loops that pad. `Spec/PointMesh`: which points the mesh has. Proof: what the two loops have written, by induction; sums of the sizes before.

The index map is the start of its local range, the sum over the processes before (C05 proves that of `IndexMap`). The element, data types and the UFL domain are left out; memory is a function of the address.

Theorems: `C114_points`, `C114_numbers`

### C115 Texts in XDMF files lead back to the data

Status: **partial**. `Model/XdmfText`: texts as lists of characters; split, trim, the loops that join, and the stem of a file name. `Spec/XdmfText`: what is assumed of single numbers. Proof: words without separators come back from split, by induction; the number of words is one more than the number of separators.

Shapes and XML numbers are proved in full. Paths are read back if and only if no name has a colon; the code refutes the rest: a mesh named `a:b` is written and cannot be read (`C115_refuted_colon`). HDF5 files are different for names that end in `.xdmf`; for other extensions they need not be: `run.1` and `run.2` share `run.h5` (`C115_refuted_clash`). Writing and reading a single number, and pugixml, are trusted (floating point numbers in the XML format lose digits: C74).

Theorems: `C115_dims`, `C115_xml`, `C115_path_partial`, `C115_refuted_colon`, `C115_h5name_partial`, `C115_h5name_inj_partial`, `C115_refuted_clash`

### C116 Every step of a time series in an XDMF file has its own values

Status: **partial**. `Model/XdmfSeries`: collections with steps that refer to paths, the HDF5 file as a map from paths to data. `Spec/XdmfSeries`: the list of calls, filtered by name. Proof: induction over the program from its end; paths are different for different names and times since texts of numbers have neither `/` nor `_`.

Proved for every program: each step has its time and place, and the values last written for its name and time (`C116_exact`); hence its own values if no two attributes have the same name and time (`C116_series_partial`). The code refutes the rest: the place in the HDF5 file is made of name and time only and is written over, so that two functions with the default name `f` at the default time 0 both show the values of the second (`C116_refuted_overwritten`); so do `real_u` and the real part of `u` (`C116_refuted_prefix`). Arrays of different sizes for one place (an HDF5 error), names with characters that XPath or HDF5 interpret, and the values themselves (C87) are left out.

Theorems: `C116_exact`, `C116_series_partial`, `C116_refuted_overwritten`, `C116_refuted_prefix`

### C117 The steps of a VTK series have files of their own

Status: **partial**. `Model/PvdSeries`: names as texts, with the decimal digits of numbers; calls with the counter taken from the list of steps; the disk as a map from names to contents. `Spec/PvdSeries`: the list of calls. Proof: digits have the value of the number, so names differ for different ranks and steps; writes to the same name have the same contents, hence the order does not matter.

Proved for names without a further dot and up to a million steps, on any number of processes. The code refutes the rest: `replace_extension` is used on the stem with the counter appended, so that for a name such as `u_0.5.pvd` it cuts off the counter and the rank, and all processes write all steps to `u_0.vtu` (`C117_refuted_dot`); step number 1000000 has more digits than the counter and raises an exception (`C117_refuted_million`). The contents of the pieces are C64 and C87; directories and failures of the file system are left out.

Theorems: `C117_series_partial`, `C117_refuted_dot`, `C117_refuted_million`

### C118 Each step of a VTX file shows all functions at their nodes

Status: **partial**. `Model/VtxWriter`: the checks of the constructor and, for each call, the list of variables put; a reader that looks variables up by name. `Spec/VtxWriter`: what a step has to show. Proof: which names are put in a step, then induction over the calls.

Proved for lists whose first function is not constant on cells (or that are all constant), with names that are all distinct and none of those the writer uses. The code refutes the rest: `write` takes the nodes from the first function of the list (`_u[0]`) instead of the space that the constructor has chosen, so that a list that begins with a function constant on cells gets a mesh with one node for each cell (`C118_refuted_order`); names of functions that are constant on cells are not checked (`C118_refuted_names`). ADIOS2 and the reader are simplified as described in the model.

Theorems: `C118_update_partial`, `C118_reuse_partial`, `C118_components`, `C118_checked`, `C118_refuted_order`, `C118_refuted_names`

### C119 What is in an XDMF file is found by its name

Status: **partial**. `Model/XdmfNames`: the list of grids with the paths of their arrays, the HDF5 file as a map from paths to data, readers that take the first grid with a name. `Spec/XdmfNames`: which calls use a name. Proof: induction over the calls before (no grid has the name) and after (the first grid with the name and the arrays of the name stay).

Proved for meshes, geometries and tags whose name no other call uses, whatever is written before and after; for information, the value of the first call with the name is read. The code refutes the rest: a second set of tags with the same name (the default is `mesh_tags`) replaces the arrays of the first without a message (`C119_refuted_tags`); a function with the name of a mesh hides it (`C119_refuted_function`); information that is written again keeps its old value (`C119_refuted_info`). Paths are triples, whose texts are different for all names (`C119_paths`). Arrays written to one path are taken to have one size.

Theorems: `C119_mesh_partial`, `C119_geometry_partial`, `C119_tags_partial`, `C119_info_partial`, `C119_absent`, `C119_paths`, `C119_refuted_tags`, `C119_refuted_function`, `C119_refuted_info`

## Where the code does not do what the property says

Each item has a proved witness, except those marked (reading), which were found while
modelling and have no theorem.

* `radix_sort` counts in the key type and misorders ranges longer than 2^w; `BITS >= w`
  gives an array of size zero (`C03_refuted_*`).
* PCX (`compute_graph_edges_pcx`) has no tag parameter, consecutive calls can mix messages
  (`C08_refuted_*`).  NBX documents the same for equal tags.
* `norm(linf)` on a rank that owns nothing reads the first ghost or past the end (`C12`).
* `orthonormalize` projects with the conjugated coefficient for complex vectors (`C13`).
* `insert_blocked_csr` checks only the first column of a block, so a missing entry is
  written elsewhere (`C16_refuted_blocked_missing`); a failed insertion leaves a partial
  update (`C17_refuted_partial_update`).  (reading) `add` passes `_row_ptr.size()` as the
  debug bound for rows, one too many.
* `transpose`/`matmul`: with three or more ranks an isolated rank skips a collective call (`C22`).
* `reorder_gps`/RCM is no permutation for directed graphs (`C24_refuted_directed`).
* Graph distribution takes its buffer width from the first node only (`C25_refuted_degree`).
* `compute_local_to_local` takes the identity shortcut for repeated globals (`C27`).
* `compute_submap_indices` throws on some ranks only, the others wait (`C29`).
* `compute_triangle_rot_reflect` keeps global vertices in `const int`
  (`C35_refuted_large_numbers`); `determine_sharing_ranks` sends them as `int`
  (`C40_refuted_large_numbers`, `C41_refuted_large_numbers`) and needs sorted input that
  `create_topology` does not ask for (`C40_refuted_unsorted`).
* `build_real_element_dofmap` without cells: nobody owns the dof (`C43_refuted_no_cells`).
* `build_dual_graph` with a bound loses links of facets with more cells (`C44_refuted_limit`;
  documented).
* `assemble_vector` with facet integrals on meshes with several cell types adds each facet
  once per cell type, into the dofs of another cell type (`C46_refuted_mixed_facets`).
* `locate_dofs_topological` with `remote=True` exchanges only between owner and ghost
  processes, and the owner does not forward: a dof found by one ghost process only stays
  unknown to the other ghost processes (`C48_refuted_second_neighbour`), so that the
  conditions are not consistent as C45-C47 need.
* `_build_from_point` takes the lexicographic minimum and maximum of the points as corners of
  the box of inner nodes; it is no bounding box, and searches in such trees miss points
  (`C49_refuted_point_tree`, `C50_refuted_point_search`).
* `_compute_collisions_point` uses the entity number of a leaf as a node number if the tree
  has a single leaf and the point is outside: it reads out of bounds
  (`C49_refuted_single_leaf`).
* `_compute_closest_entity` in a padded tree of vertices takes the distance to the corner of
  the padded box (`C50_refuted_padded_vertices`).
* (reading) `compute_first_colliding_cell` calls `std::reduce` with an operation that is
  neither commutative nor associative; the standard leaves the result open.
* (reading) `create_identity_partitioner` (`refine.h` L65) tests `parent_cell[i] >
  parent_num_cells` instead of `>=`, so the first ghost cell counts as owned; arrays made by
  `refine` have only owned parents.
* (reading) `compute_midpoints` takes the mean of all dofs of the closure of an edge; for
  curved edges this is neither the middle of the ends nor a point of the edge.
* (reading) `transfer_facet_meshtag` and `transfer_cell_meshtag` look for ghosts only in the mesh that was refined. If the refined mesh
  has ghosts, or its cells were redistributed, `original_cell_index` exceeds the array `cell` of parents; only assertions guard the
  access. `transfer_facet_meshtag` in C++ does not check that the tags are on facets (the Python layer does).
* (reading) `enforce_rules` and `interval::compute_refinement_data` exchange marks only if edges were given; if some processes give
  edges and others none, the collective calls do not match.
* `uniform_refine` divides a pyramid into 5 pyramids and 4 tetrahedra. The sixth pyramid, with the base of the topmost one and its apex in the
  middle of the old base, is missing: 1/8 of the volume is not covered and the mesh has inner sides with one cell
  (`C58_refuted_pyramid_hole`, `C58_refuted_pyramid_fits`). The unit test fixes the number 5.
* (reading) `uniform_refine` asks `entity_dofs(0, k)` for all k below the number of dofs (L85-87); for geometries of higher degree there is no
  such vertex.
* C60: `create_form_factory` (`fem/utils.h` L609-690, L752-790) never clears the vectors of default facets, vertices and ridges between integrals.
  With two default integrals of one such kind (`Form.h` L136-139 allows repeated ids) the second is evaluated twice on each
  entity (`C60_refuted_default_twice`). For cells the vector is overwritten.
* C60: `create_form_factory` leaves a gap in the integral indices when an id has no entry in `subdomains`, while `num_integrals` counts the
  entries; assembling then throws "Requested integral kernel not found" (`C60_refuted_gap`). From Python this happens with subdomain data
  given as a list that lacks an id of the form; with tags all ids are passed.
* C61: `build_prism` (`generation.h` L491) takes the range of cells from `comm` instead of `subcomm`. If `subcomm` is smaller, vertices of all
  and cells of a part of the box are created (`C61_refuted_prism_subcomm`).
* C61: `build_tri` throws for too flat rectangles only on process 0 (L542), the others enter `create_mesh` (`C61_refuted_flat`).
* (reading) The documentation of `create_rectangle` and `create_box` says that the order of the two points does not matter (L86, L139, L165), the code
  rejects all but one order. `DiagonalType::shared_facet` is treated as `right`. The number of vertices in the documentation is wrong for crossed diagonals.
* C62: `create_subtopology` throws "Index owner change detected!" on the owner of the entity only (`IndexMap.cpp` L244-245); the other processes
  wait in the exchange that follows.
* C63: `transfer_meshtags_to_submesh` uses the largest value of the type as marker of untagged entities; tags with this value are dropped
  without notice (`C63_refuted_max`).
* (C64) `perm_vtk` and `perm_gmsh` return `std::uint16_t`: for cells with more than 65536 nodes (hexahedra of degree 40)
  numbers wrap and the array is not a permutation. There is no check.
* (C64, reading) `cell_degree` rejects prisms with 18 and pyramids with 14 nodes, which are the full elements of degree 2
  that `perm_vtk` knows and `VTKHDF::write_mesh` writes.
* (C66) `VTKHDF::write_mesh` (L88) adds an offset for every row of the geometry dofmap, ghost cells included, but writes
  types and nodes of owned cells only. With several cell types and ghost cells the offsets of all types after the first are
  wrong (`C66_refuted_ghosts`); reading the file fails.
* (C66) `VTKHDF.h` L109-130: `std::accumulate` and `std::inner_product` start from the `int` literal `0`, so that positions and
  sizes are 32 bit sums; a connectivity with 2^31 entries (2^28 linear hexahedra) cannot be written (`C66_refuted_large`).
* (C66) Prisms of degree 2 (18 nodes) are written as VTK type 73, for which `read_mesh` calls `cell_degree`, which throws
  (`C66_refuted_prism`). Pyramids of any degree are written as VTK type 14 and read as linear ones with too many nodes
  (`C66_refuted_pyramid`).
* (C66, reading) A file with both VTK_TRIANGLE and VTK_LAGRANGE_TRIANGLE of degree 1 is read as a mesh with two cell types
  which are both triangles. `write_data` divides by the number of owned points or cells of a process, which may be 0.
* (C67) `compute_destination_ranks` (`partitioners.cpp` L144) gives `recv_sizes` the size `dest.size()` instead of `src.size()`.
  For a graph with links in one direction only it writes outside of the array (`C67_refuted_directed`). Graphs of meshes are
  symmetric, so that the sizes agree.
* (C68) `ElementDofLayout::sub_view` (L104-119) and `sub_layout` (L88-93) look up every component in the sub-layouts of the
  top-level layout, not of the current one. `FunctionSpace::sub({i, j})` with two components therefore gives the dofs of other
  sub-elements (`C68_refuted_nested`). Python only passes single components.
* C69: `DofMap::collapse` of a blocked sub-space of a mixed space (index map with block size 1, layout with block size
  above 1; DofMap.cpp L219-243) builds a new dofmap with `build_dofmap_data` but does not apply `permute_inv`, as
  `create_dofmap` (utils.cpp L32-75) does for the parent. For Lagrange elements of degree 3 and more the collapsed space
  is wrong on cells with reflected edges; functions collapsed to it get wrong values (`C69_refuted_permuted`).
* (reading) `DofMap::collapse` computes `collapsed_dof_layout` but passes the old `layout` to the new dofmap, which then
  still says that it is a view. For meshes with several cell types, the collapsed dofmaps of the cell types have separate
  index maps.
* `transpose_dofmap` (`DofMap.cpp` L124-126) dereferences `std::max_element` of an empty range when
  there are no cells: on a process without cells and ghosts this reads through a pointer to an empty
  array (C71, `C71_refuted_empty`).
* C73: `io::distribute_entity_data` takes the number of nodes from the index map of the geometry, which counts only nodes that belong to cells. Input files with further nodes (as mesh generators write them) have larger node numbers, and `MPI::index_owner` then gives a rank that does not exist: reading tags fails (`C73_refuted_unused`).
* (C74, proved) Cubic triangles and tetrahedra are written to XDMF files as `Triangle_10` and `Tetrahedron_20`, names that
  `get_cell_type` does not know: such files cannot be read. `Quadrilateral_8` is a known name, and `read_mesh` in Python has a
  case for it, but `perm_vtk` refuses eight nodes.
* (C74, proved) `add_topology_data` (`xdmf_mesh.cpp` L40-43) means to refuse facets of prisms and pyramids, but tests `tdim == 2`
  instead of `dim == 2`. Writing tags on quadrilateral facets of a prism then reads `vtk_map` outside of its range.
* (C74, proved) `get_dataset` (`xdmf_utils.h` L226-239) for flat HDF5 data multiplies by the first dimension twice, and calls
  `local_range` with the rank in place of the number of processes, which divides by zero on process 0. The check of sizes at the end
  (L268) runs only if there are no sizes to compare (`if (shape_xml.empty())`).
* (C74, proved) In the XML encoding, numbers are written with 16 digits (`{:.16}`), one too few for double precision.
* (C74, reading) `XDMFFile::read_meshtags` permutes entities from VTK's order a second time (`read_topology_data` did it already).
  This is harmless only because `distribute_entity_data` looks at vertices alone, and these stay among the first nodes.
* (C75, proved) `Form` (`Form.h` L262-287, L330-356) and `pack_coefficients` (`pack.h` L296-303) do not compare dimensions if the mesh of the form is a
  mesh of facets of the mesh of an argument or coefficient: the numbers of facets are then taken as numbers of cells. Only positive differences of
  dimension are checked, and only for coefficients; an argument on a mesh of facets in a cell integral is accepted too.
* (C76, proved) `interpolate_nonmatching_maps` (`interpolate.h` L465-701) does not know about symmetric matrix elements: a symmetric 2x2 matrix in three
  blocks interpolated into an element with another map (Regge, Hellan-Herrmann-Johnson) gets its third block as component 2 and zero as component 3.
  In the other direction an assertion fails (in a release build, the first three components are taken).
* (C76, proved) `piola_mapped_evaluation` (`interpolate.h` L1066) passes the block size to `interpolation_apply` although it handles one block at a time:
  an assertion fails for blocked elements with a map other than the identity; without assertions the coefficients of a block are written out of range.
* (C77, proved) `Function::eval` (`Function.h`) returns before all checks if the array of cells is empty; `Function.eval` in Python then returns
  the values of `np.empty` for any number of points.
* (C76, reading) `Function.interpolate` of a callable in Python accepts `cells1` and ignores it.
* (C78, proved) `interpolate` between non-matching meshes (`interpolate.h` L1216-1283) never compares the value sizes of the two functions: it takes that of
  the element interpolated into and passes an array of this row length to `eval` of the other function. Scalar into vector gives zeros in all components
  but the first, vector into scalar writes outside of the array.
* (C79) Dof transformations from the right (columns of cell matrices): for blocked elements `dof_transformation_right_fn` applies the left function of the same type to each row, that is the transpose of what the documentation says and what is done for other elements; for mixed elements sub-elements get the rest of the array, from which the length of rows cannot be known.
* (C79) `Function::eval`, `interpolate_nonmatching_maps` and `interpolation_matrix` use the transformation of the whole element (`scalar_element = false`) for basis functions of the scalar element; a blocked element that needs transformations (vector serendipity of degree 3 or more) reads and writes outside of the values of the point.
* (reading) `discrete_gradient` applies no dof transformations of V0; `interpolation_matrix` into a symmetric element of point evaluations writes outside of its working array.
* (C80) The Python layer refuses `interpolation_matrix` for block sizes (2, 3), (3, 2) and any above 3; for a target space of symmetric matrices (`interpolation_ident` with value size 4 and block size 3) the code writes beyond the array of the cell. Meshes and value sizes of the two spaces are never compared (only an assertion on the meshes in `create_sparsity`).
* (C80, reading) `discrete_gradient` and `discrete_curl` set the rows of ghosts as well, `interpolation_matrix` keeps them zero; after `scatter_reverse` rows of the former would be counted twice.
* (C81) The exchange of `locate_dofs_topological` for two spaces has the same gap as for one (C48): `C81_refuted_second_neighbour`.
* (C81, reading) `locate_dofs_geometrical` is documented for a "(sub)space", and its error for mixed spaces says "Use subspaces", but a sub-space is always refused by `tabulate_dof_coordinates`; only the version for two spaces (sub-space and collapsed space) works. The length of what a marker returns is never compared with the number of points.
* (C82) `NewtonSolver` with the default criterion 'residual' compares the residual with `rtol` times the norm of the first increment: `_residual0` is set from `_dx` whatever the criterion is (`C82_refuted_relative`). With `atol = 0` and a start at the exact solution it fails (`C82_refuted_exact_start`).
* (C83) `CoordinateElement::pull_back_nonaffine` tests `k == maxit` after its loop. With a negative `maxit` the loop is not entered and the test fails, so it returns the origin of the reference cell for every point without an exception.
* (C83, reading) The documentation of `CoordinateElement.pull_back` suggests rows of `geometry.x` as nodes, which have three columns. With points of two columns this works for affine cells (`C83_affine`, the third row of the Jacobian is written over the part for its inverse, which is overwritten later), but fails an assertion in debug builds for other cells.
* (C84) `assemble_matrix` for an array of forms sets `diag` in every block whose form has the same test and trial space (`fem/petsc.py` L584-588), also beside the diagonal. With one space for two fields and a condition on it the matrix has equal rows (`C84_refuted_shared_space`); spaces must be cloned.
* (C84, reading) `fem.petsc.assign` cuts the arrays of functions at `dofmap.bs * size_local`, the vector is made with `index_map_bs`. For a function on a sub-space (`u.sub(i)`), whose array is that of the whole function, the two differ.
* (C84, reading) The check for a row or column of forms that is all `None` (`fem/petsc.py` L537-545) fires only if there is no form at all; otherwise an empty row or column ends in an `AttributeError` three lines below. Its message lacks the `f` of a formatted string.
* (C85) `bcs_by_block` takes an `Iterable` of conditions but reads it once per block: with a generator, all blocks after the first with a space get no conditions, without an error.
* (C85) If the same function space object is used for two unknowns of a block system, a condition on it goes to both blocks (and see C84 for the diagonal); `clone` is the remedy.
* (C85, reading) `FunctionSpace.sub(i)` in Python only checks `i >= num_sub_elements`. A negative `i` passes, as it passes the test in `_extract_sub_element`, which then reads `sub_elements()[i]` in front of the vector.
* (C85, reading) C++ `extract_function_spaces` and `common_function_spaces` take the number of columns from the first row; a longer row is written outside of the array (`C85_ragged`).
* `la/superlu_dist.h` L266-267 and `superlu_dist.py` L170-172 tell users to call `set_option("Factor", "FACTORED")`
  before further solves; `set_option` knows `Fact` only and throws (`C86_refuted_documented_option`).  `set_A` replaces the matrix
  before it looks at its second argument: with an unknown value it throws, and the solver is left with the
  new matrix and the old factors (`C86_refuted_set_A_throws`).
* (C87) `VTKFile::write_function` writes point-wise values without padding if the mesh has geometric dimension 3 (`VTKFile.cpp` L536-539, L579-582), but declares the padded number of
  components: vectors with two components and symmetric tensors (six of nine) on such meshes stand at wrong points, and the array is too short.
* (C87) In the branch for functions of the same element but another dofmap, `VTKFile.cpp` L583-590 pads the original vector, not the array `u` that was just filled in the order of the
  points: on meshes with geometric dimension 1 or 2, e.g. a collapsed sub-space beside another space, values stand at wrong points.
* (C87) Tensors of shape 2x2 are padded at the end to nine entries, not to a 3x3 matrix, in all three writers (VTK, XDMF, VTX).
* (C87) `xdmf_function::add_function` does not refuse sub-functions. For a vector-valued one, whose view of the dofmap has block size one, the loop runs over the dofs of all
  components and reads behind the nodes of the cell (only asserted).
* (C87) `VTXWriter::write` makes the points from `_u[0]`, although the constructor looked for the first point-wise function: with a piecewise constant first, the file has points for the
  constants only. The check of equal dofmaps is compiled in debug builds only, and cell data is written in the order of dofs.
* (C88) `mark_maximum` is documented to mark entities with `marker_i ≥ θ max(marker)` but tests `e > theta * max` (`mark.h` L41): entities for which equality holds are not marked, in
  particular nothing is marked if all values are zero.
* (C89) `tabulate_expression` takes `element_dof_layout().num_dofs() * bs()` of the dofmap as the dimension of the argument (`assembler.h` L117-118 and the wrapper L277-279).  For a
  vector-valued sub-space, whose dofmap view has block size one while the layout counts blocks, this is less than `space_dimension`, for which Python allocates and the kernel is generated: the
  kernel writes behind the end of `values_local`.
* (C89) The transformation of arguments inherits the errors of `dof_transformation_right_fn` (C79) for blocked and mixed elements.
* (C90) `LinearProblem.__init__` compares `dtype is not u.dtype` (`problems.py` L93-96).  The default is the class `np.float64`, `Function.dtype` is an instance of `np.dtype`: a
  function passed with the default dtype is always refused, although the documentation says that it need only match.  Proved as `C90_refuted_dtype`; no test passes `u`.
* (C90) `solve` raises an exception for `error > 0` only (L170-171); SuperLU_DIST reports arguments it does not accept with negative codes, and the documentation of the wrapper says that 0
  is success.  The right-hand side is then returned as the solution.  Proved as `C90_refuted_negative`.
* (C92) `model_to_mesh` (`gmsh.py` L374-377) notes a message if a type of cells has no cell in a group, but then reads `topologies[eTypes]` all the same: a `KeyError` on the rank with the
  model, while all other ranks wait in `comm.bcast` (L387).  Proved as `C92_refuted_waits`.  The same holds if there is no model on that rank, or its nodes are not contiguous
  (`C92_refuted_alone`).
* (C92) The condition at L479-481 is `(codim == 1 and prism) or pyramid`: every mesh of pyramids is refused because of "facet tags", also if there are cell tags only
  (`C92_refuted_pyramid`).
* (C92) Physical groups are returned in a dictionary by name; groups without a name all have the empty name and only the last is kept (`C92_refuted_names`).
* (C92) Type 92 (hexahedra of degree 3) is in `_gmsh_to_cells`, but `perm_gmsh` knows no 64-node hexahedra (`C92_refuted_type92`).
* (C92, reading) If several types of a dimension are marked (mixed cells, facets of prisms), the tags of that dimension are `None` without a message.
* (C93) `mesh::h` (`mesh/utils.h` L430-485) is documented as the greatest distance between vertices; the list `e_vertices` has all geometry nodes of the entity, so on curved meshes other
  nodes count (`C93_refuted_h_vertices`).
* (C93) `cell_normals` calls `entities_to_geometry` without permutation: for a facet between two cells the sign of the normal depends on which cell comes first on a process
  (`C93_refuted_sign`).
* (C94) `get_vtk_cell_type` gives pyramids of all degrees the type 14 (`VTK_PYRAMID`, five nodes; `cells.cpp` L741-742): plot data and files for pyramids of degree two have 13 or 14 nodes
  with this type (`C94_refuted_pyramid`).
* (C94) `_first_order_vtk` (`plot.py` L25-31) has no prisms and pyramids: spaces of degree one on them end in a `KeyError`, spaces of degree two do not (`C94_refuted_first`).
* (C95) `nearest_simplex` for three points compares strictly (`gjk.h` L126, L139, L151): if the nearest point is a vertex and one edge at it is orthogonal to it, no case applies and the code
  uses the formula for the interior, with negative weights that are then dropped.  For the triangle (1,3,0), (2,-1,0), (1,0,0) and the origin the result is (7/3,0,0)
  (`C95_refuted_tie`).  The case of four points compares with `<=`.
* (C95) `T d[4][4]` (`gjk.h` L210) is not initialised, its diagonal is never set and is compared with zero (L223).  For `float32` in Python `T` is `double`, so this is an indeterminate number;
  if it is positive the result is wrong (`C95_refuted_uninitialised`).
* (C95) The exit `xs_diff < eps` (`gjk.h` L440) is absolute: bodies at a distance of 1e-12 get vectors of length 1e-9 (`C95_refuted_small`).
* (C95) 15 iterations are not enough for some polygons with 20 points (`C95_refuted_limit`).  In `compute_distances_gjk` the exception leaves a thread's function and ends the program
  (reading).
* (C96) `compute_first_colliding_cell` sums squares by `std::reduce` with the operation `d + e * e` (`geometry/utils.h` L546-547), which is neither associative nor commutative; the C++ standard
  leaves the result open, and one of the results allowed makes a cell at distance 5 collide (`C96_refuted_reduce`).  Libraries go from left to right.
* (C96) `compute_colliding_cells` compares with an absolute tolerance, `1e-12` (`geometry/utils.h` L638): a cell of length 1e-9 collides with a point 99 lengths away (`C96_refuted_small`).
* (C97) Cells count as the hull of their nodes (documented only for `squared_distance`): a point of a curved cell outside of this hull is not found by `compute_colliding_cells`, although the
  cell is a candidate (`C97_refuted_curved`: an interval of degree two).
* `graph.comm_graph(map, root)` of Python ignores `root` (`python/dolfinx/graph.py` L183): the graph arrives on rank 0, and `root` gets a graph without
  edges (`C98_refuted_root`). Ranks other than the root do not get an empty graph but one with a node for each rank, of size zero (`C98_refuted_empty`);
  code that tells the root by `num_nodes > 0` fails.
* A named `Timer` that is stopped but not flushed when it is destroyed is never logged (`C99_refuted_stopped`), though the destructor's documentation
  says it is; using one `Timer` for two `with` blocks logs only the first (`C99_refuted_twice`), since `flush` forgets the name.
* (proved, C100) `list_timings` throws "Missing table value" on rank 0 if another rank has timed a task that rank 0 has not (`Table::reduce` copies counts from rank 0 only, and `Table::str` asks for all columns of all rows); its average divides by the number of all ranks even if only some have timed the task.
* `mpi_jit_decorator` catches only `Exception`: if `KeyboardInterrupt` or `SystemExit` ends the compiler call on rank 0, the other ranks wait in `bcast` for ever (`C102_refuted_interrupt`).
* C105: `petsc.LinearProblem` (and `NonlinearProblem`, same code) sets the passed options in PETSc's global database and
  deletes them after `setFromOptions`. An option of the same name that the user has set before (command line) is deleted with
  them, so that a second problem with the same prefix does not see it; if `setFromOptions` raises, the options and the pushed
  prefix stay. (reading) Options that PETSc reads only when the solver is set up, after the constructor, are gone by then.
* `Function.split` (`python/dolfinx/fem/function.py` L636-639) raises "No subfunctions to extract" for functions with exactly one sub-function and
  returns an empty tuple for those with none: the test should be for 0, not 1 (`C108_refuted_split_one`, `C108_refuted_split_none`).
* (reading) `FunctionSpace.sub(i)` (`python/dolfinx/fem/function.py` L808-811) with negative `i` passes its test and takes the UFL element from the end;
  `_extract_sub_element` (`cpp/dolfinx/fem/FiniteElement.cpp` L66-73) compares signed numbers and reads `sub_elements()[-1]`, outside of the array.
* (reading) `mesh::exterior_facet_indices(topology, facet_type_idx)` (`cpp/dolfinx/mesh/utils.cpp` L61-89) asks for `topology.connectivity(tdim - 1, tdim)`,
  which raises for several facet types (`cpp/dolfinx/mesh/Topology.cpp` L959-968); so what the other overload advises for prisms and pyramids (L91-100) cannot work.
* (reading) The documentation of `ffcx_jit` (`python/dolfinx/jit.py` L212-215) shows an options file with `True`, which is not JSON; such a file makes every
  compilation raise. `get_options` promises a copy but hands out the list of default compiler flags itself (L149-150): appending to it changes the default.
* `VTKHDF::write_data` divides by the number of points or cells of the process (VTKHDF.h L196): on a process without any, the program ends with a division by zero (`C109_refuted_empty`).
* `VTKHDF::write_data` increases `NSteps` before it looks for the data set of the same kind (L219-226): cell data after point data, or the reverse, ends with an exception and leaves a file that claims one step more than it has (`C109_refuted_mixed`).
* `VTKHDF::write_data` does not compare the number of values per point with that of the data set: `H5Dset_extent` then cuts off or pads all earlier steps (`C109_refuted_width`).
* `VTKHDF::write_data` adds up `global_size` and `range0` with the literal `0`, that is in `int` (L267-274), although the lambda of `global_size` takes `std::int64_t` (`C109_refuted_size`).
* (reading) `hdf5::write_dataset` does not look at the result of `H5Dset_extent`; for a data set without chunks the call fails, and rows of a longer old data set stay behind the new ones.
* (reading) `create_form` (forms.py L725-727) copies the dictionary of subdomains but not its lists and sorts these in place, so that the lists of the caller change (`C110_lists`: they keep their pairs).
* (reading) `get_integration_domains` sorts lists of pairs with `sorted(subdomain)` (forms.py L218), which for two pairs with the same id compares arrays and raises; `create_form` sorts by id only and then uses the first pair.
* (proved, `C111_refuted_move`, `C111_refuted_taken`, `C111_refuted_assign`) `nls::petsc::NewtonSolver` has raw pointers `_b`, `_matJ`, `_matP`, `_dx` that its destructor releases,
  but its move constructor and move assignment are defaulted (`NewtonSolver.h` L49, L58): after a move both solvers release the same references.
* (proved, `C111_refuted_set`) `NewtonSolver::setF`, `setJ` and `setP` overwrite the pointer without releasing the object set before (`NewtonSolver.cpp` L97-119): each further call leaks a
  vector or matrix. From Python this is reached by calling `setF` or `setJ` twice.
* (proved, `C112_refuted_append`, `C112_refuted_prio`) `get_options` is documented to return a copy, but it is a shallow one: the list `cffi_extra_compile_args` in it is the list in
  `DOLFINX_DEFAULT_JIT_OPTIONS` (`jit.py` L148-150), so `get_options()["cffi_extra_compile_args"].append(…)` changes the flags of every later compilation.
* (reading) `get_options({"cache_dir": None})` gives the directory `None` in the working directory (`jit.py` L160), and an empty `XDG_CONFIG_HOME` makes the user's file a path relative to the
  working directory (L115-117).
* (proved, `C113_refuted_exception`) `compute_distances_gjk` runs `compute_distance_gjk`, which throws when its iteration does not converge, in `std::jthread`s without catching
  (`gjk.h` L531-551): with one thread the caller gets an exception, with several the program is ended by `std::terminate` unless the body belongs to the first share.
* (reading) In the same function `results` is returned before the threads are joined (`gjk.h` L545-555): this is right only because the compiler elides the move of `results`, which C++ permits
  but does not require.
* C115: `get_hdf5_paths` (`xdmf_utils.cpp` L100-106) splits the text of a data item at every colon
  and wants two parts, while `add_data_item` (`xdmf_utils.h` L126-128) writes names as they are: a mesh
  with the name `a:b`, or a file name with a colon, is written without error and cannot be read.
* C115: `get_hdf5_filename` (`xdmf_utils.cpp` L111-123) replaces whatever follows the last dot, so that
  XDMF files `run.1` and `run.2` (or `a.xdmf` and `a.xmf`) write to the same HDF5 file.
* C116: `add_function` (`xdmf_function.cpp`) puts the values at `/Function/<name>/<time>` and
  `write_dataset` (`HDF5Interface.h` L179-186) writes over data that exist: two functions with the same
  name (all have the name `f` by default) written at the same time (0 by default) both show the
  values of the second, without any error or warning.
* C117: `write_function` and `VTKFile::write` (`VTKFile.cpp` L601-622, L817-836) append rank and counter
  to the stem of the file name and then call `replace_extension`. If the stem has a dot itself, as in
  `u_0.5.pvd`, this removes rank and counter: all processes write all steps to one file
  (`u_0.vtu`), at the same time, and every step of the series shows what was written last.
* C117: `get_counter` (`VTKFile.cpp` L47-49) throws `std::length_error` from step 1000000 on.
* C118: `VTXWriter::write` (`ADIOS2Writers.h` L649-661) writes the mesh from the space of `_u[0]`, while the
  constructor looks for the first function that is not constant on cells: a list `[dg0, p1]` is accepted
  and gets a mesh made of the dofs of `dg0`, with the values of `p1` on top of it.
* C118: `extract_function_names` (`ADIOS2Writers.h` L203-213) checks `names` for duplicates but not `dg0_names`: two functions that are
  constant on cells with the same name share one variable.
* C119: `write_meshtags` (`XDMFFile.cpp` L314-340) and `add_meshtags` (`xdmf_mesh.h` L117-141) use only the name for the path in the HDF5
  file: two sets of tags with the default name `mesh_tags` share their arrays, and both grids show the second.
* C119: `read_topology_data` (`XDMFFile.cpp` L206-222) takes the first `Grid` with the name, of any kind: a function with the name of a mesh
  hides the mesh.
* C119: `write_information` (`XDMFFile.cpp` L450-466) appends, `read_information` takes the first: a new value is never read.
* (reading) The `assemble_matrix` overload with markers (`assembler.h` L616-632) calls the
  implementation without the geometry argument and cannot be instantiated.
* (reading) `build_basic_dofmaps` checks missing connectivity only for the first cell type
  that needs an entity type; `reorder_owned` divides by zero for layouts without dofs.
