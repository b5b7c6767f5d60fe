{"id": "C01", "title": "sortv returns the sorted rearrangement", "statement": "Calling sortv / sortv_long / sortv_double / sortv_float with any strided input array A of n keys into a separate output leaves in out exactly the keys of A (as a multiset), in non-decreasing order, whichever of the radix or merge algorithms the size threshold selects.", "quantifier": "every n, every key array, every stride/initial content (strided access is an abstract list of n keys), both sides of the n=256 threshold and every digit width / key width", "why_tests_cant": "The algorithms have data dependent control flow (bit-stack merge recursion, skipped radix passes); tests sample a few sizes and distributions.", "anchors": ["src/sort_imp.h:radix_sortv", "src/sort_imp.h:merge_sortv", "src/sort_imp.h:sortv", "src/sort.h"]}
{"id": "C02", "title": "sortp returns a stable sorting permutation", "statement": "sortp(buf,0,A,n,stride) returns a permutation p of 0..n-1 such that A[p[0]]<=A[p[1]]<=..., and entries with equal keys appear in increasing index order.", "quantifier": "every n and every key array, both the radix and the merge branch", "why_tests_cant": "Stability and permutation-ness must hold for every tie pattern and size.", "anchors": ["src/sort_imp.h:radix_sortp", "src/sort_imp.h:merge_sortp", "src/sort_imp.h:sortp"]}
{"id": "C03", "title": "sortp with start_perm refines an earlier permutation", "statement": "When buf holds a permutation q of 0..n-1, sortp(buf,1,A,n,stride) replaces it by a permutation p sorted by A where entries with equal keys keep the relative order they had in q; hence least-significant-first calls give a lexicographic multi-key sort.", "quantifier": "every n, key array and every starting permutation", "why_tests_cant": "Composition over arbitrary many keys and ties.", "anchors": ["src/sort_imp.h:sortp", "src/sort_imp.h:radix_sortp", "src/sort_imp.h:merge_sortp"]}
{"id": "C04", "title": "radix and merge branches are interchangeable", "statement": "For the same input (and starting permutation) the radix branch and the merge branch of sortv/sortp produce identical output, so the DIGIT_VALUES size threshold and the number of skipped digits are unobservable.", "quantifier": "every input on both branches", "why_tests_cant": "A test picks one branch per size; the equality is across both for all inputs.", "anchors": ["src/sort_imp.h:sortv", "src/sort_imp.h:sortp", "src/sort_imp.h:radix_sortp"]}
{"id": "C05", "title": "in-place sortv (heap sort) sorts", "statement": "Calling sortv with out==A (stride equal to the key size, below the radix threshold) leaves in A the sorted rearrangement of its initial contents and never touches an index outside 0..n-1.", "quantifier": "every n and array", "why_tests_cant": "Heap-shape invariants hold for all sizes and contents.", "anchors": ["src/sort_imp.h:heap_sortv", "src/sort_imp.h:sortv"]}
{"id": "C06", "title": "sarray_permute applies the permutation to whole rows and restores the permutation", "statement": "sarray_permute(T,A,n,perm) leaves row i of A equal to the old row perm[i], for every row size, and leaves perm itself unchanged although it is used as scratch (visited marks); it terminates for every permutation.", "quantifier": "every n, every permutation of 0..n-1 and every row content", "why_tests_cant": "Cycle structure is arbitrary; a test covers a handful of permutations.", "anchors": ["src/sarray_sort.c:sarray_permute_", "src/sarray_sort.h:sarray_permute"]}
{"id": "C07", "title": "sarray_sort / sarray_sort_2 / _3 / _4 are stable lexicographic sorts of rows", "statement": "After sarray_sort_k(T,A,n,f1,...,fk) the array holds the same rows, ordered lexicographically by (f1,...,fk), rows with all fields equal in their original relative order.", "quantifier": "every array of rows, any number of key fields", "why_tests_cant": "All tie patterns in all fields.", "anchors": ["src/sarray_sort.h:sarray_sort", "src/sarray_sort.h:sarray_sort_2", "src/sarray_sort.h:sarray_sort_3", "src/sarray_sort.h:sarray_sort_4"]}
{"id": "C08", "title": "sarray_perm_invert inverts a permutation", "statement": "sarray_perm_invert(pinv,perm,n) yields pinv[perm[i]]=i and perm[pinv[j]]=j; permuting rows by perm and then by pinv restores the original array.", "quantifier": "every permutation", "why_tests_cant": "All permutations.", "anchors": ["src/sarray_sort.h:sarray_perm_invert"]}
{"id": "C09", "title": "crystal_router delivers every message exactly once, unmodified, to its target", "statement": "After crystal_router on P processes, process p's data holds exactly the multiset of [target,source,len,payload] messages with target p that were present on all processes before, and nothing else.", "quantifier": "every P>=1, every placement of messages (any number, payload length, including zero-length payload and self-targeted messages)", "why_tests_cant": "Recursive bisection with odd splits; tests run with a few process counts.", "anchors": ["src/crystal.c:crystal_router", "src/crystal.c:crystal_move", "src/crystal.c:crystal_exchange"]}
{"id": "C10", "title": "crystal_router point-to-point exchanges always match (no deadlock)", "statement": "At every stage of crystal_router on every process, each message a process posts a receive for is sent by exactly the process it names in the same stage, and vice versa, so that the stage completes; all processes leave after at most ceil(log2 P) stages.", "quantifier": "every P>=1 and every rank, every stage", "why_tests_cant": "Odd group sizes make the partner relation irregular; hangs depend on P.", "anchors": ["src/crystal.c:crystal_router", "src/crystal.c:crystal_exchange"]}
{"id": "C11", "title": "crystal_move splits the buffer without loss", "statement": "Splitting a buffer of concatenated messages at a cutoff moves exactly the messages that must go to the other half to the send buffer and keeps the others, preserving order and contents of both.", "quantifier": "every well-formed buffer, cutoff and direction", "why_tests_cant": "All message sequences.", "anchors": ["src/crystal.c:crystal_move"]}
{"id": "C12", "title": "sarray_transfer delivers every row to the process named in its field, with the source (or target) recorded", "statement": "After sarray_transfer(T,A,proc_field,set_src,cr) the rows held by process p are, as a multiset, exactly the rows that named p on all processes, each with all other fields unchanged and with proc_field set to the sending process (set_src=1) or left as the target (set_src=0).", "quantifier": "every P, every distribution of rows over processes, any row size and field position, any number of rows (including none)", "why_tests_cant": "Arbitrary communication patterns.", "anchors": ["src/sarray_transfer.c:sarray_transfer_", "src/sarray_transfer.c:pack_int", "src/sarray_transfer.c:unpack_int", "src/sarray_transfer.c:sarray_transfer_many"]}
{"id": "C13", "title": "transfer there and back is the identity up to order", "statement": "Two consecutive sarray_transfer calls with set_src=1 return every row to the process it came from with all fields as initially; sorting by an index field then restores the initial array exactly.", "quantifier": "every P and every distribution of rows", "why_tests_cant": "Arbitrary patterns; used by findpts, gs_setup.", "anchors": ["src/sarray_transfer.c:sarray_transfer_", "src/sarray_transfer.h"]}
{"id": "C14", "title": "sarray_transfer_many moves the components of a row together", "statement": "Transferring several arrays together (e.g. the Fortran tuple transfer of integer, long and real columns) keeps component j of row i of every array attached to each other; pack followed by unpack is the identity on rows.", "quantifier": "every number of arrays, row sizes, row contents", "why_tests_cant": "All sizes and layouts.", "anchors": ["src/sarray_transfer.c:pack_more", "src/sarray_transfer.c:unpack_more", "src/sarray_transfer.c:sarray_transfer_many"]}
{"id": "C15", "title": "fixed-capacity transfer never writes more rows than the capacity", "statement": "In fixed mode (sarray_transfer_many with fixed=1, the Fortran crystal_*tuple_transfer) at most max rows are written into the caller's array, the returned count is the number received even if larger than max.", "quantifier": "every max, every sequence of received messages", "why_tests_cant": "Overflow only at particular boundaries between messages.", "anchors": ["src/sarray_transfer.c:cap_rows", "src/sarray_transfer.c:sarray_transfer_many", "src/fcrystal.c:fcrystal_ituple_transfer"]}
{"id": "C16", "title": "sarray_transfer_ext sends row i to proc[i]", "statement": "With an external destination array, row i is delivered to proc[i] unmodified.", "quantifier": "every P and every destination assignment", "why_tests_cant": "Arbitrary patterns.", "anchors": ["src/sarray_transfer.c:pack_ext", "src/sarray_transfer.c:sarray_transfer_ext_"]}
{"id": "C17", "title": "comm_scan computes the exclusive prefix and the total on every process", "statement": "For every P and per-process vectors v_p, comm_scan returns on process p the reduction of v_0..v_{p-1} (identity for p=0) and the reduction of all v; the messages exchanged always match.", "quantifier": "every P>=1, every vector length and value, every commutative monoid (all gs operations on the integer domains; the contributions are not combined in rank order)", "why_tests_cant": "Tree shape depends on P; odd groups.", "anchors": ["src/comm.c:scan_imp", "src/comm.c:comm_scan"]}
{"id": "C18", "title": "hand-written allreduce computes the reduction on every process", "statement": "comm_allreduce (tree implementation used without MPI reduction support or with gs_bpr) leaves on every process the op-reduction of the vectors of all processes, in rank order, and messages always match.", "quantifier": "every P>=1, every associative op", "why_tests_cant": "Tree shape depends on P.", "anchors": ["src/comm.c:allreduce_imp", "src/comm.c:comm_allreduce"]}
{"id": "C19", "title": "reduction operators are commutative monoids with the advertised identity", "statement": "For each gs operation (add, mul, min, max, bpr) on the integer domains, the operation is associative and commutative and gs_identity is its identity, so results do not depend on the order in which contributions are combined (bpr: on domains as wide as uint, or on values that fit uint).", "quantifier": "all operand values of the machine word (any width)", "why_tests_cant": "2^32..2^96 combinations.", "anchors": ["src/gs_defs.h:GS_DO_add", "src/gs_defs.h:GS_DO_bpr", "src/gs_local.c:gs_identity_double"]}
{"id": "C20", "title": "gs: symmetric gather-scatter replaces each entry by the group reduction", "statement": "With all ids positive, after gs(v,dom,op,0,g,buf) every v[i] on every process equals the op-reduction over all (process,index) pairs with the same id of their initial values.", "quantifier": "every P, all id arrays and all values, every commutative op", "why_tests_cant": "Id sharing patterns between processes are arbitrary.", "anchors": ["src/gs.c:gs_aux", "src/gs.c:gs_setup_aux", "src/gs.c:pw_exec", "src/gs_local.c:gs_gather_array"]}
{"id": "C21", "title": "gs: zero ids are ignored", "statement": "Entries with id 0 neither contribute to nor are changed by any gs operation.", "quantifier": "every P, ids, values, transpose flag", "why_tests_cant": "All patterns.", "anchors": ["src/gs.c:nonzero_ids", "src/gs.h"]}
{"id": "C22", "title": "gs: flagged entries and the transpose flag", "statement": "With transpose=0 flagged (negative id) entries do not contribute but receive the reduction of the unflagged entries with the same id. With transpose=1 all entries contribute, unflagged entries receive the reduction of the whole group, and a flagged entry is not modified if its process has an unflagged entry with this id or an earlier entry with this id (otherwise it receives the reduction of the entries of its own process: on a process where an id is only flagged, the first such entry is modified).", "quantifier": "every P, id arrays with arbitrary signs, values", "why_tests_cant": "All flag patterns.", "anchors": ["src/gs.c:gs_aux", "src/gs.c:local_map", "src/gs.c:flagged_primaries_map", "src/gs.h"]}
{"id": "C23", "title": "gs_unique leaves exactly one unflagged owner per id", "statement": "After gs_unique, for each nonzero |id| that had an unflagged entry, exactly one (process,index) pair over all processes remains unflagged, absolute values are unchanged and previously flagged entries stay flagged.", "quantifier": "every P and id arrays", "why_tests_cant": "All sharing patterns.", "anchors": ["src/gs.c:gs_unique", "src/gs.c:make_topology_unique"]}
{"id": "C24", "title": "gs_vec and gs_many equal k independent gs calls", "statement": "gs_vec on v[n][k] and gs_many on k arrays give the same result as k separate gs calls on the components.", "quantifier": "every k, values, maps, op", "why_tests_cant": "All k and patterns.", "anchors": ["src/gs_local.c:gs_gather_vec", "src/gs_local.c:gs_gather_many", "src/gs_local.c:gs_scatter_many_to_vec", "src/gs.c:gs_vec", "src/gs.c:gs_many"]}
{"id": "C25", "title": "gs result is independent of the exchange method", "statement": "Pairwise, crystal-router and all-reduce exchange give the same result; gs_auto's timing-based choice is unobservable.", "quantifier": "every P, id arrays, values, timing outcome", "why_tests_cant": "The choice is timing dependent.", "anchors": ["src/gs.c:pw_exec", "src/gs.c:cr_exec", "src/gs.c:allreduce_exec", "src/gs.c:auto_setup"]}
{"id": "C26", "title": "nonblocking igs + gs_wait equals the blocking gs", "statement": "igs_* followed by gs_wait on the returned handle has the effect of gs_*: in every program in which the outstanding operations use distinct gs handles, distinct buffers and distinct arrays, and every process starts the same operations in the same order, all schedules end with the arrays holding the results of the blocking calls made one after another, for any order of waiting on each process and any number of outstanding operations. The handles are those of the pairwise method, or of the all-reduce method with nonblocking collectives compiled in and at least one shared id; for the crystal router it is false, and without nonblocking collectives all-reduce igs aborts.", "quantifier": "every history of starts and waits, every schedule", "why_tests_cant": "Interleavings.", "anchors": ["src/gs.c:igs", "src/gs.c:gs_wait", "src/gs.c:pw_exec_irecv"]}
{"id": "C27", "title": "nonblocking request handle table", "statement": "Handles returned by outstanding igs calls are distinct, each wait finishes exactly the operation its handle was returned for, and the table is recycled when all are finished.", "quantifier": "every sequence of igs and gs_wait calls", "why_tests_cant": "Unbounded histories.", "anchors": ["src/gs.c:gs_wait", "src/gs.c:igs"]}
{"id": "C28", "title": "Fortran gs handle table", "statement": "Handles returned by gslib_gs_setup are valid until freed, distinct handles address distinct objects, use of a freed or out-of-range handle is rejected; dom arguments outside 1..3 and op arguments outside 1..4 are rejected.", "quantifier": "every sequence of setup/op/free calls", "why_tests_cant": "Unbounded histories.", "anchors": ["src/gs.c:fgs_setup", "src/gs.c:fgs_check_handle", "src/gs.c:fgs_free", "src/fcrystal.c:fcrystal_setup"]}
{"id": "C29", "title": "Fortran fields variant addresses field j at its stride", "statement": "gslib_gs_op_fields operates on element i of field j at address u + (j*stride+i)*size(dom) for each of the three Fortran domains (1 double, 2 sint, 3 slong).", "quantifier": "every dom, stride, n", "why_tests_cant": "Type-size dependent.", "anchors": ["src/gs.c:fgs_fields"]}
{"id": "C30", "title": "array growth keeps contents and is sufficient", "statement": "array_reserve(T,A,n) leaves max>=n, never shrinks, preserves the first A.n rows; array_cat appends exactly the given rows; any sequence of appends behaves as list append with geometric growth (amortised constant reallocations).", "quantifier": "every sequence of operations", "why_tests_cant": "Histories.", "anchors": ["src/mem.h:array_reserve_", "src/mem.h:array_cat_", "src/mem.h:array_resize"]}
{"id": "C31", "title": "align_as rounds up", "statement": "align_as(T,n) is the least multiple of the alignment that is >= n, so objects laid out in a shared buffer are aligned and do not overlap.", "quantifier": "all n and alignments", "why_tests_cant": "All values.", "anchors": ["src/mem.h:align_as_", "src/sarray_sort.c:sarray_permute_buf_"]}
{"id": "C32", "title": "Lagrange evaluation interpolates exactly", "statement": "lagrange_setup/lagrange_eval compute the cardinal polynomials: value i at node j is 1 if i=j else 0; for every polynomial of degree < n the weighted sum of nodal values equals the polynomial at x; in particular the values sum to 1.", "quantifier": "every n, every set of distinct nodes, every x (exact arithmetic)", "why_tests_cant": "All node sets and degrees.", "anchors": ["src/poly.c:lagrange_eval", "src/poly.c:lagrange_coef", "src/poly.c:lagrange_setup"]}
{"id": "C33", "title": "Lagrange derivatives are the derivatives", "statement": "The first and second derivative rows returned by lagrange_eval are the first and second derivatives of the value row.", "quantifier": "every n, nodes, x (exact arithmetic)", "why_tests_cant": "All n.", "anchors": ["src/poly.c:lagrange_eval"]}
{"id": "C34", "title": "Legendre evaluation satisfies the three-term recurrence and endpoint values", "statement": "legendre/legendre_d1/legendre_d2 compute P_n, P_n', P_n'' for all n: three-term recurrence, P_n(1)=1, parity, derivative relations.", "quantifier": "every n and x (exact arithmetic)", "why_tests_cant": "All n.", "anchors": ["src/poly.c:legendre", "src/poly.c:legendre_d1", "src/poly.c:legendre_d2"]}
{"id": "C35", "title": "Gauss and Lobatto nodes/weights are symmetric", "statement": "gauss_nodes/lobatto_nodes/gauss_quad/lobatto_quad fill all n entries, with z[n-1-i]=-z[i], w[n-1-i]=w[i], middle node exactly 0 for odd n and z[0]=-1, z[n-1]=1 for Lobatto.", "quantifier": "every n", "why_tests_cant": "All n.", "anchors": ["src/poly.c:gauss_nodes", "src/poly.c:lobatto_nodes", "src/poly.c:lobatto_quad"]}
{"id": "C36", "title": "tensor kernels compute the tensor-product contraction", "statement": "tensor_mxm, tensor_i1/i2/i3, ig1/ig2/ig3 and 2t/3t compute the (gradient of the) tensor-product sums in the documented index order.", "quantifier": "every dimension and entry values (exact arithmetic)", "why_tests_cant": "All sizes.", "anchors": ["src/tensor.h", "src/tensor.c"]}
{"id": "C37", "title": "lob_bnd gives true bounds", "statement": "lob_bnd_1/2/3 return an interval containing every value of the (tensor) polynomial interpolant on [-1,1]^d, given valid piecewise-linear bounds for the basis functions; and after lob_bnd_setup with 2 to 24 nodes and m >= 4n points (the documented choice) the bounds in its table are valid, so that the interval contains every value without further assumption.", "quantifier": "every n,m (2<=n<=24, m>=4n for the table of lob_bnd_setup), nodal data and evaluation point (exact arithmetic)", "why_tests_cant": "Continuum of evaluation points.", "anchors": ["src/lob_bnd.c:lob_bnd_setup", "src/lob_bnd.c:lob_bnd_lin_1", "src/lob_bnd.c:lob_bnd_1", "src/lob_bnd.c:lob_bnd_2", "src/lob_bnd.c:lob_bnd_3", "src/lob_bnd.c:minmax"]}
{"id": "C38", "title": "work-space sizes suffice and sub-arrays do not overlap", "statement": "The size functions (lob_bnd_size, gll_lag_size, findpts work sizes, obbox work sizes) are at least what the set-up layout uses.", "quantifier": "every n,m", "why_tests_cant": "All sizes.", "anchors": ["src/lob_bnd.h:lob_bnd_size", "src/poly.h:gll_lag_size", "src/findpts_el_2.c:work_size", "src/obbox.c"]}
{"id": "C39", "title": "oriented bounding boxes contain the element", "statement": "Every point of an element whose map has nonzero Jacobian inside satisfies the inequalities of the box computed by obbox_calc_2/3 and passes obbox_test, for 2 to 24 nodes and m >= 4n per direction (for other sizes if the tables of bounds of C37 are valid); expansion by a non-negative tolerance only enlarges the box.", "quantifier": "all elements, points and tolerances (exact arithmetic)", "why_tests_cant": "Continuum.", "anchors": ["src/obbox.h:obbox_test_2", "src/obbox.c:obbox_calc_2", "src/obbox.c:dbl_range_expand"]}
{"id": "C40", "title": "local hash table is complete", "statement": "For every non-empty list of proper bounding boxes, building the local hash table stays within the reported table size, reads only entries it has written, every cell lists each element at most once in increasing order, the reported maximum is the longest cell list, and for every point x in the half open bounding box of element e, e is listed in the cell of x.", "quantifier": "all boxes, hash sizes, points (exact arithmetic)", "why_tests_cant": "Continuum of points; boundary cells.", "anchors": ["src/findpts_local_imp.h:hash_build", "src/findpts_local_imp.h:hash_range", "src/findpts_local_imp.h:hash_index"]}
{"id": "C41", "title": "global hash table is complete", "statement": "For each process having an element whose box contains x, the process is listed in the cell of x on the process owning that cell; cell->(process,index) is injective and in range.", "quantifier": "every P, cell counts and points", "why_tests_cant": "All P and grid sizes.", "anchors": ["src/findpts_imp.h:fill_hash", "src/findpts_imp.h:table_from_hash", "src/findpts_imp.h:set_local_mask"]}
{"id": "C42", "title": "findpts returns the best candidate", "statement": "Among all candidate results for a point findpts keeps an INTERNAL one if there is any, else the one with minimal distance, and NOT_FOUND only when there is no candidate; result does not depend on the order of arrival apart from ties.", "quantifier": "every sequence of candidate results", "why_tests_cant": "Arrival orders.", "anchors": ["src/findpts_local_imp.h:findptsms_local", "src/findpts_imp.h:findptsms"]}
{"id": "C43", "title": "findpts routes results back to the asking process and index", "statement": "Each of the npt points asked on each process receives the result computed for that very point; points found locally are not affected by remote processing.", "quantifier": "every P and point distribution", "why_tests_cant": "Arbitrary patterns.", "anchors": ["src/findpts_imp.h:findptsms", "src/findpts_imp.h:findptsms_eval"]}
{"id": "C44", "title": "findpts Newton iterates stay in the reference element", "statement": "Every returned r lies in [-1,1]^d and constrained components are exactly +-1.", "quantifier": "all elements, points, iterates (exact arithmetic)", "why_tests_cant": "Continuum.", "anchors": ["src/findpts_el_2.c:newton_area", "src/findpts_el_2.c:newton_edge", "src/findpts_el_3.c:newton_vol"]}
{"id": "C45", "title": "trust-region bookkeeping", "statement": "A step that does not reduce the objective enough is rejected, the previous point is restored and the trust radius shrinks; an accepted step never increases the distance.", "quantifier": "all iterates", "why_tests_cant": "Continuum.", "anchors": ["src/findpts_el_2.c:reject_prior_step_q"]}
{"id": "C46", "title": "findpts_el processes every point and keeps results attached to points", "statement": "The grouping of points by constraint pattern inside findpts_el visits each unconverged point exactly once per iteration and every point's result is written back at its own index.", "quantifier": "every npt, flags, convergence pattern", "why_tests_cant": "All patterns.", "anchors": ["src/findpts_el_2.c:findpts_el_2", "src/findpts_el_3.c:findpts_el_3"]}
{"id": "C47", "title": "constraint flag encoding", "statement": "The helper maps between constraint flags and face/edge/point indices are bijections consistent in 2D and 3D.", "quantifier": "all flags", "why_tests_cant": "Finite, but completeness is over every combination and dimension.", "anchors": ["src/findpts_el_2.c:pt_flags_to_bin", "src/findpts_el_3.c:pt_flags_to_bin", "src/findpts_el_3.c:face_index"]}
{"id": "C48", "title": "small linear solves are correct", "statement": "lin_solve_2, lin_solve_3, lin_solve_sym_2, mat_inv_2, mat_inv_3 solve the system / invert the matrix whenever the determinant is nonzero.", "quantifier": "all matrices (exact arithmetic)", "why_tests_cant": "Continuum.", "anchors": ["src/findpts_el_2.c:lin_solve_2", "src/findpts_el_3.c:lin_solve_3", "src/obbox.c:mat_inv_2"]}
{"id": "C49", "title": "findpts_eval evaluates the interpolant at the requested location", "statement": "findpts_eval returns for each point the tensor Lagrange interpolant of the input field of element el at r; repeated evaluation with the saved communication pattern equals fresh evaluation as long as the points are unchanged.", "quantifier": "every P, points, fields; every history of findpts and findpts_eval calls", "why_tests_cant": "Histories.", "anchors": ["src/findpts_imp.h:findptsms_eval", "src/findpts_imp.h:setup_fev_aux", "src/findpts_el_2.c:findpts_el_eval_2"]}
{"id": "C50", "title": "32-bit message length guard", "statement": "crystal_router aborts instead of wrapping when a message would exceed INT_MAX bytes.", "quantifier": "all sizes", "why_tests_cant": "Needs huge buffers.", "anchors": ["src/crystal.c:crystal_exchange", "src/crystal.c:crystal_router"]}
{"id": "C51", "title": "hash size selection and bit masks", "statement": "The table size chosen for the local hash is exactly the size of the table with the chosen number of cells, stays within the limit given by the caller unless a single cell per coordinate is used, and one more cell per coordinate would exceed the limit (or the upper end of the search). The bit-mask helpers compute bit membership and population count: a bit is seen as set exactly if it was set.", "quantifier": "all inputs", "why_tests_cant": "All values.", "anchors": ["src/findpts_local_imp.h:hash_opt_size", "src/findpts.c:set_bit", "src/findpts.c:count_bits"]}
{"id": "C52", "title": "Lobatto Lagrange functions interpolate exactly", "statement": "gll_lag_setup and the function it returns (one of 23 unrolled functions for n<=24, the general one beyond) compute the Lagrange basis on the Lobatto nodes with first and second derivatives, within gll_lag_size(n) doubles, after any history of calls; the nodes of order n<=24 are strictly increasing from -1 to 1.", "quantifier": "every n>=2, x, number of derivatives and history of calls (exact arithmetic)", "why_tests_cant": "23 generated straight-line functions, all points and polynomials.", "anchors": ["src/poly_imp.h", "src/poly.c:gll_lag_setup", "src/poly.c:gll_lag_size", "src/poly.c:lobatto_nodes"]}
{"id": "C53", "title": "tabulated Lobatto nodes are accurate", "statement": "Every literal in the tables of Lobatto nodes is within 1e-49 of an exact Gauss-Lobatto-Legendre node of its order.", "quantifier": "every tabulated order and node", "why_tests_cant": "The exact nodes are irrational; a test compares two approximations.", "anchors": ["src/poly_imp.h:gllz_table"]}
{"id": "C54", "title": "gs_setup with unique=1 works with one contributor per id", "statement": "If no process has a flagged entry of an id in front of its first unflagged entry of this id, then gs with a handle from gs_setup with unique=1 has the result of gs with the ids that gs_unique would give: every id with an unflagged entry has exactly one contributing entry over all processes. (Without the condition the flagged entry in front contributes: ids -5, 5 with values 1, 2 give 3, 3.)", "quantifier": "every number of processes, id arrays satisfying the condition, values, method and schedule", "why_tests_cant": "All sharing patterns, methods and message interleavings.", "anchors": ["src/gs.c:gs_setup", "src/gs.c:make_topology_unique", "src/gs.c:local_map"]}
{"id": "C55", "title": "findptsms returns the best result over all sessions", "statement": "With several overlapping meshes (sessions), findptsms stores for each point the best result (as findpts would) of some session the point may be searched in, and no admissible session has only results with a larger value of the distance function; the result is 'not found' exactly if there is no candidate element. Only the elements of the point's own session (session match 1) or of other sessions (match 0) are used. The result does not depend on the message schedule.", "quantifier": "every number of processes and sessions, every distribution of elements, every points, match mode, and message schedule", "why_tests_cant": "All partitions, overlaps and message interleavings.", "anchors": ["src/findpts_imp.h:findptsms", "src/findpts_local_imp.h:findptsms_local"]}
{"id": "C56", "title": "A point search reported as converged stands at a first order optimum", "statement": "When a step of the search in an element flags a point as converged, then either the position it started from was accepted and, unless the trust region is already below the tolerance, every derivative of the squared distance there is below the tolerance (times a scale made of the first and second derivatives of the element map) or points out of the element at a coordinate that is at its bound, or the step ended at a corner (2D) or on the boundary (3D) by releasing constraints; or the position was rejected, the previous one restored, and the decrease predicted was below the tolerance. The exception is real: in an affine parallelogram the search started at the nearest node ends there as converged although other points of the element are nearer.", "quantifier": "every element map (any order, any geometry with invertible Jacobian), every point, every starting position, every tolerance, every number of steps", "why_tests_cant": "All element geometries, points and iteration histories.", "anchors": ["src/findpts_el_2.c:newton_area", "src/findpts_el_2.c:newton_edge", "src/findpts_el_2.c:findpt_edge", "src/findpts_el_3.c:newton_vol", "src/findpts_el_3.c:newton_face", "src/findpts_el_3.c:newton_edge", "src/findpts_el_3.c:findpt_face"]}
{"id": "C57", "title": "Gauss and Lobatto rules integrate polynomials exactly", "statement": "The nodes and weights stored by gauss_quad integrate every polynomial of degree at most 2n-1 over [-1,1] exactly if the nodes are n distinct zeros of the Legendre polynomial P_n; those of lobatto_quad every polynomial of degree at most 2n-3 if the inner nodes are distinct zeros of P_{n-1}'. For 2<=n<=24, where lobatto_quad takes its nodes from a table, the error is at most 1e-45 times the sum of the absolute values of the coefficients, for every polynomial of degree at most 2n-3, with no assumption (and without rounding).", "quantifier": "every n, every polynomial of the given degree, every starting value of the node iteration", "why_tests_cant": "All polynomials and all orders.", "anchors": ["src/poly.c:gauss_quad", "src/poly.c:lobatto_quad", "src/poly_imp.h:gllz_table"]}
{"id": "C58", "title": "Computed quadrature nodes are close to exact ones", "statement": "Whenever gauss_nodes (lobatto_nodes) returns, every node it stores is within a small multiple of the square of the iteration tolerance of a zero of P_n (every inner node of a zero of P_{n-1}', or within 1e-49 if n<=24) in the open interval (-1,1), whatever the starting values were; and if the stored nodes are not too close to each other then every zero has been found.", "quantifier": "every n up to a bound set by the tolerance (about 2000 with the constant of the code), every starting value and number of iterations", "why_tests_cant": "All orders and all iteration histories.", "anchors": ["src/poly.c:gauss_nodes", "src/poly.c:lobatto_nodes_aux", "src/poly.c:lobatto_nodes"]}
{"id": "C59", "title": "a point of the mesh is never lost", "statement": "After findpts_setup with a positive bounding-box tolerance, findpts never reports \"not found\" for a point that lies in some element of some process (boundary included): it reports \"internal\" whenever the search in that element does, and a \"border\" result has a distance at most that of the search in that element. findptsms likewise never reports \"not found\" if the element belongs to an admissible session.", "quantifier": "every number of processes, every mesh of elements with 2 to 24 nodes per direction (m >= 4n) and nonzero Jacobian inside, 2D and 3D, every point, every schedule of the setup and of the search (exact arithmetic)", "why_tests_cant": "The point can be lost in the bounds, the boxes, the local or the distributed hash table or the routing, only for particular points, meshes and schedules.", "anchors": ["src/findpts_imp.h:findpts", "src/findpts_local_imp.h:findptsms_local_setup", "src/obbox.c:obbox_calc_2", "src/obbox.c:obbox_calc_3", "src/lob_bnd.c:lob_bnd_setup"]}
{"id": "C60", "title": "strided arguments: results go exactly where the strides say", "statement": "findpts_local, findpts, findptsms and findpts_eval read and write the arrays of the caller only at base + i*stride: for arrays of any byte strides (such as members of an array of structs) in which no result overlaps another variable and whose last point begins less than 4 GB behind the first, code, proc, el, r, dist2 of every point are found at base + i*stride and are those of the best candidate; out_base + i*out_stride holds the value of the field at every point found; no other byte of the caller's memory changes. Beyond 4 GB the offsets wrap and the result of one point overwrites that of another.", "quantifier": "every memory, every set of base addresses and strides meeting the condition, every number of processes, every mesh and list of points, every schedule", "why_tests_cant": "Tests use packed arrays; a wrong stride or base in one of the four places that address a point only shows for particular layouts and for points answered by other processes.", "anchors": ["src/findpts_imp.h:findpts", "src/findpts_imp.h:findpts_eval", "src/findpts_imp.h:AT", "src/findpts_local_imp.h:findpts_local", "src/findpts.c:findpts_eval"]}
{"id": "C61", "title": "gather-scatter in floating point", "statement": "For an operation that need not be associative or commutative (sums and products of rounded numbers), gs, gs_vec and gs_many with every method still end on all processes, and their result does not depend on the schedule: every entry is obtained by combining exactly the values the documentation names, each of them once, in some order and with some bracketing; entries with id 0 are untouched. If every rounded operation has relative error at most u, an entry combining n values differs from the exact sum by at most ((1+u)^(n-1)-1) times the sum of the absolute values, and from the exact product by at most ((1+u)^(n-1)-1) times its absolute value. (Copies of one value on different processes need not be equal: proved by an example.) With the pairwise method the result is determined bit for bit by the handles and the data (not by the contents or lengths of the buffers), and igs, igs_vec, igs_many with gs_wait give bit for bit the results of the blocking calls one after the other, for any number of outstanding operations.", "quantifier": "every operation, every number of processes, all ids and values, every method, both directions, every schedule", "why_tests_cant": "Tests compare with a tolerance and cannot tell a lost or doubled small term from rounding; the order of combination depends on the ids, the number of processes and the method.", "anchors": ["src/gs.c:gs", "src/gs.c:gs_vec", "src/gs.c:gs_many", "src/gs.c:pw_exec", "src/gs.c:cr_exec", "src/gs.c:allreduce_exec", "src/gs_local.c:gs_gather", "src/comm.c:allreduce_imp", "src/gs.c:igs", "src/gs.c:gs_wait", "src/gs.c:pw_exec_irecv"]}
{"id": "C62", "title": "sorting arrays of structs in memory", "statement": "sarray_sort, sarray_sort_2, _3 and _4 applied to an array of n structs of any size at any address, with fields at any offsets (uint, ulong, float, double), total size below 4 GB, rearrange the bytes of the array struct by struct in the stable lexicographic order of the fields and change no other byte; sortp and sortv with any stride return the stable sorting permutation and the sorted values of the keys at base+i*stride. The buffer sortp and sarray_permute_buf reserve contains the permutation and the work space, aligned and disjoint, for n < 2^31. Beyond these limits this fails: proved by examples.", "quantifier": "every memory, base address, struct size, field offsets, number of structs, values, contents of the work space; both the merge and the radix branch", "why_tests_cant": "The pointer arithmetic goes wrong only for particular strides, sizes and counts (32-bit products), and an overlap of the work areas shows only for some alignments.", "anchors": ["src/sort_imp.h:sortp", "src/sort_imp.h:sortv", "src/sort_imp.h:INDEX_PTR", "src/sort_imp.h:radix_count", "src/sarray_sort.c:sarray_permute_", "src/sarray_sort.c:sarray_permute_buf_", "src/sarray_sort.h:sarray_sort"]}
{"id": "C63", "title": "findpts_setup, then findpts: the whole program", "statement": "findpts_setup, called on all processes with any numbers of elements (also none), ends on all of them on every schedule. Afterwards all processes hold the same bound, in every coordinate the least interval that contains the boxes of all elements (and 0 if a process has none), and the same number of cells per coordinate, the least n with n^D at least the sum of the global_hash_size arguments. With exactly the data it leaves in memory, every later findpts gives every point the best result among elements that include all whose box contains the point; for real meshes (2 to 24 nodes per direction, nonzero Jacobian, m>=4n, positive tolerance) a point of the mesh, also on the boundary of elements, is never reported as not found, by findpts or by findptsms.", "quantifier": "every number of processes, all meshes, sizes of the tables, points, every schedule of the setup and of the search", "why_tests_cant": "A bound or number of cells that differs between processes, or a bound that misses one element on one process, loses only some points for some distributions of the mesh.", "anchors": ["src/findpts_imp.h:hash_bb", "src/findpts_imp.h:hash_build", "src/findpts_imp.h:setupms_aux", "src/findpts_local_imp.h:findptsms_local_setup", "src/findpts_local_imp.h:hash_build", "src/findpts_imp.h:findptsms"]}
{"id": "C64", "title": "gs_auto chooses the same method on all processes", "statement": "gs_setup with gs_auto ends on all processes, with its trial exchanges and reductions of the measured times, whatever each process's clock shows. All processes get handles of the same method: with m0, m1, m2 the largest time of any process for pairwise, crystal router and all-reduce, the crystal router replaces pairwise if m1 < m0, and the all-reduce (with fewer than 100000 shared ids) is used if m2 < min(m0,m1); gs with these handles computes the specified reductions.", "quantifier": "every number of processes, ids, clock readings on each process, schedules", "why_tests_cant": "The clocks cannot be controlled; processes that decide differently would exchange incompatible messages and hang, only for nearly equal times.", "anchors": ["src/gs.c:auto_setup", "src/gs.c:dry_run_time", "src/comm.c:comm_allreduce_imp"]}
{"id": "C65", "title": "gather-scatter as linear algebra: transpose, repetition, multiplicity", "statement": "The gs operation with transpose=1 is the transpose of the one with transpose=0: sum of w*gs(u) over all entries of all processes equals the sum of gsT(w)*u over the unflagged and ignored entries. With minimum or maximum (any operation with f(x,x)=x) a second gs changes nothing. gs of ones counts copies: dividing by it, every sum over all entries counts each id exactly once.", "quantifier": "every number of processes, ids (zero and flagged included where stated), data, method of setup, schedules; every commutative ring (exact reals, machine integers modulo 2^w) for the transpose", "why_tests_cant": "Solvers use these identities (symmetric operators, weighted inner products); an error shows only for particular patterns of flags and copies across processes.", "anchors": ["src/gs.c:gs", "src/gs.c:gs_aux", "src/gs_local.c:gs_gather_array", "src/gs_local.c:gs_scatter"]}
{"id": "C66", "title": "all-reduce and scan give the same bits everywhere", "statement": "For every operation, also non-associative ones such as floating point sums, the tree all-reduce and comm_scan end with the same reduction on all processes, the same in every run: the rank-ordered combination of all contributions, each once, with parentheses nested at most ceil(log2 P) deep; hence a sum has relative rounding error at most (1+u)^ceil(log2 P)-1 (times the sum of absolute values). The prefix on rank p combines the identity and the contributions of the lower ranks, each once.", "quantifier": "every number of processes, vector length, operation, values, schedule", "why_tests_cant": "Whether two processes ever see different bits depends on the order of arithmetic for every P and every schedule; branches on a reduced value (as in gs_auto) deadlock if they do.", "anchors": ["src/comm.c:allreduce_imp", "src/comm.c:scan_imp", "src/comm.c:comm_allreduce", "src/comm.c:comm_scan"]}
{"id": "C67", "title": "gs is reproducible; which copies are equal bit for bit", "statement": "With a handle of gs_setup for any method, and any operation (also non-associative, e.g. rounded sums), gs, gs_vec and gs_many give a result that is determined by the handle and the data alone: the same bits in every run, whatever the schedule, the contents and the lengths of the work buffers. The entries of one process that receive the combination of the values with one id are equal bit for bit; with the all-reduce method (also if gs_auto chose it) the entries on all processes are (if any entry has this id unflagged). With the pairwise method copies on different processes can differ (C61).", "quantifier": "every method, number of processes, ids, values, mode, operation, transpose flag, buffer contents, schedule", "why_tests_cant": "A result that depends on stale buffer contents or on arrival order can agree in every test run; bitwise agreement of copies is needed for every distribution of the ids.", "anchors": ["src/gs.c:gs_aux", "src/gs.c:pw_exec", "src/gs.c:cr_exec", "src/gs.c:allreduce_exec", "src/gs_local.c"]}
{"id": "C68", "title": "comm_dot and comm_reduce", "statement": "comm_dot and comm_reduce return the same value on all processes, the same in every run, for any arithmetic: the rank-ordered combination of the local results (each accumulated in index order), parentheses nested at most ceil(log2 P) deep. In exact arithmetic comm_dot is the dot product of the distributed vectors; in floating point (with or without fused multiply-add) its error is at most ((1+u)^(N+1+ceil(log2 P))-1) times the sum of |v_i w_i|, N the largest local length. No array is read past n.", "quantifier": "every number of processes, local lengths (also 0), values, operations, schedules", "why_tests_cant": "A dot product that differs between processes breaks iterations that stop when a norm is small, for particular values and P only; an error bound quantifies over all data.", "anchors": ["src/comm.c:comm_dot", "src/comm.c:comm_reduce__T", "src/tensor.c:tensor_dot", "src/comm.c:allreduce_imp"]}
{"id": "C69", "title": "local hash table with 32-bit arithmetic", "statement": "If (nel+1)*nu^D+1 < 2^32 with nu = ceil((max_size-nel)^(1/D)) > 0, then building the local hash table with 32-bit unsigned arithmetic (and conversions to int that are undefined outside of its range) never wraps, converts only representable values, stays inside its arrays and yields the complete table of C40. (Otherwise it can fail: 65536 elements with one bounding box and size limit 327680 overflow the table; a size limit equal to the number of elements is undefined behaviour.)", "quantifier": "all proper boxes, numbers of elements, size limits satisfying the inequality (exact real arithmetic for coordinates)", "why_tests_cant": "Wrap-around needs element counts and overlaps that no test mesh has; the claim is about all boxes and limits.", "anchors": ["src/findpts_local_imp.h:hash_count", "src/findpts_local_imp.h:hash_opt_size", "src/findpts_local_imp.h:hash_build", "src/findpts_local_imp.h:hash_range", "src/findpts_local.c:ifloor"]}
{"id": "C70", "title": "hash tables with rounding", "statement": "With rounded arithmetic (monotone, relative error at most u <= 1/8) and boxes thicker than 5u times the extent of the mesh, building the local hash table makes no invalid access, every point hashes to a cell of the table, every cell lists existing elements in increasing order, and the cell of any point that lies in a box, more than 4u extents away from its upper faces, lists that element. The same holds for the cell computation of the global table.", "quantifier": "all boxes with that thickness, size limits, points, monotone roundings", "why_tests_cant": "Cells are computed by two different code paths from differently rounded values; a disagreement needs a point within rounding error of a cell face, and the claim is about all of them.", "anchors": ["src/findpts_local_imp.h:hash_index", "src/findpts_local_imp.h:hash_range", "src/findpts_local_imp.h:hash_build", "src/findpts_imp.h:hash_range", "src/findpts.c:hash_index_aux"]}
{"id": "C71", "title": "interpolation in floating point", "statement": "Given the weights of a point, the value computed by findpts_el_eval_2 (findpts_el_eval_3) in floating point, with or without fused multiply-add, differs from the exact tensor-product interpolant with these weights by at most ((1+u)^(nr+ns+2)-1) (respectively ((1+u)^(nr+ns+nt+3)-1)) times the sum of the absolute values of its terms, for every point of the call; no array is read past its end.", "quantifier": "all orders nr, ns, nt, numbers of points, field values, weights, roundings with relative error at most u", "why_tests_cant": "An error bound quantifies over all fields and weights; a test checks particular values with a tolerance that hides errors of a few ulps.", "anchors": ["src/findpts_el_2.c:findpts_el_eval_2", "src/findpts_el_3.c:findpts_el_eval_3", "src/tensor.h:tensor_i2", "src/tensor.c:tensor_mxm", "src/tensor.c:tensor_mtxv", "src/tensor.c:tensor_dot"]}
{"id": "C72", "title": "accuracy of Lagrange weights and of interpolation in floating point", "statement": "The weights computed by lagrange_setup / gll_lag_setup and their evaluation function in floating point for n pairwise different nodes have a relative error of at most (1-u)^-(4n+1)-1 at every point, however close to a node. The values of findpts_el_eval_2 (3) computed with them differ from the exact interpolating polynomial of the stored nodes by at most (1-u)^-(5(nr+ns)+4)-1 (respectively (1-u)^-(5(nr+ns+nt)+6)-1) times the sum of the absolute values of its terms.", "quantifier": "all node sets, orders, points, fields, roundings with relative error at most u < 1", "why_tests_cant": "Cancellation near nodes is the classical failure of Lagrange formulas and needs points that tests do not contain; an error bound quantifies over all points and fields.", "anchors": ["src/poly.c:lagrange_eval", "src/poly.c:lagrange_coef", "src/poly.c:gll_lag_setup", "src/poly_imp.h:gll_lag_02", "src/findpts_el_2.c:findpts_el_eval_2", "src/findpts_el_3.c:findpts_el_eval_3"]}
{"id": "C73", "title": "bounding-box test in floating point does not lose points", "statement": "obbox_test_2 (3) evaluated in floating point, with or without fused multiply-adds, accepts every point that satisfies the inequalities of the stored box with a margin of ((1+u)^3-1) (respectively (1+u)^4-1) times |A||x-c0| in the parallelogram (parallelepiped), and accepts no point that violates them by more than that; the axis-aligned comparison is exact. Hence a point of an element with nonzero Jacobian inside is accepted for the box obbox_calc_2 (3) yields with relative tolerance tol, if (1+tol) times that margin is at most tol.", "quantifier": "all boxes, points, elements, tolerances, roundings with relative error at most u < 1, contractions of the products", "why_tests_cant": "A false rejection at the boundary of one element makes findpts report a point of the mesh as outside; it needs a point within rounding error of a face of the box, which tests do not hit.", "anchors": ["src/obbox.h:obbox_axis_test_2", "src/obbox.h:obbox_test_2", "src/obbox.h:obbox_axis_test_3", "src/obbox.h:obbox_test_3", "src/obbox.c:obbox_calc_2", "src/obbox.c:obbox_calc_3"]}
{"id": "C74", "title": "interpolation with gradient in floating point", "statement": "tensor_ig1, tensor_ig2 and tensor_ig3 with rounded arithmetic (relative error at most u per operation, with or without fused multiply-adds) read no array past its end, and the value and every component of the gradient they yield are the tensor-product sums with the given interpolation and derivative weights (each component with the derivative weights in its own direction only), up to (1+u)^(n+d)-1 times the same sums with absolute values, where d is the dimension and n the sum of the numbers of nodes in each direction.", "quantifier": "all numbers of nodes per direction, weights, values, roundings", "why_tests_cant": "An error bound is about all inputs and all rounding outcomes; a test only sees the error for one input, and cannot tell a swapped direction from an expected error on symmetric data.", "anchors": ["src/tensor.h:tensor_ig1", "src/tensor.h:tensor_ig2", "src/tensor.h:tensor_ig3", "src/tensor.h:tensor_dot", "src/tensor.c:tensor_mxm", "src/tensor.c:tensor_mxv"]}
{"id": "C75", "title": "derivatives of Lagrange polynomials in floating point", "statement": "With rounded arithmetic (relative error at most u < 1 per operation, with or without fused multiply-adds) the first derivatives that lagrange_eval (der=1) yields with the weights of lagrange_setup for n pairwise different nodes are, at every point, the derivatives of the Lagrange polynomials up to (1-u)^-(5n+1) - 1 times the sum of the absolute values of the n-1 products of which the derivative is the sum; the second derivatives (der=2) likewise, up to (1-u)^-(5n+2) - 1 times the sum of the absolute values of the products without two of the factors. In particular no accuracy is lost near or at a node, where differences vanish.", "quantifier": "all pairwise different nodes, points, roundings and contractions", "why_tests_cant": "An error bound is about all nodes, points and rounding outcomes; tests see single errors at single points.", "anchors": ["src/poly.c:lagrange_eval", "src/poly.c:lagrange_coef", "src/poly.c:lagrange_setup"]}
{"id": "C76", "title": "Legendre polynomials in floating point", "statement": "The evaluations of P_n, P_n' and P_n'' on which gauss_nodes, lobatto_nodes and the quadrature weights are based have, with rounded arithmetic (relative error at most u per operation, with or without contraction), an error of at most (1+u)^(4n) - 1 times the sum of the absolute values of the terms that the three-term recurrence adds up, at every point and for every degree.", "quantifier": "all degrees, points, roundings and contractions", "why_tests_cant": "An error bound is about all degrees, points and rounding outcomes; tests see single errors at single points.", "anchors": ["src/poly.c:legendre", "src/poly.c:legendre_d1", "src/poly.c:legendre_d2"]}
