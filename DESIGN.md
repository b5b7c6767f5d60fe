# Formal model of Nek5000/gslib in Lean 4 — design

Source: `/repo/src` (C). Model: `/verif/lean/Verif`. English properties: `properties.jsonl`.
Status of each: `MANIFEST.json`.

## Conventions

* A C loop becomes a structural recursion or fold; an array becomes a `List`/`Array`/function on indices;
  a function mutating through a pointer returns the new value; `uint` is `Nat` unless wrap-around is the point
  (then `BitVec w`/`UInt32`). Undefined behaviour (out-of-bounds access, null call, `fail`) is a distinct outcome
  (`none` / an error constructor), never a silently totalised default in a property statement.
* An SPMD computation over P processes is a function of the whole family of per-process states; a point-to-point
  exchange is modelled message by message, and matching of sends and receives is a theorem, not an assumption.
* `double` arithmetic is modelled over an arbitrary (ordered) field: theorems are about exact arithmetic. Rounding,
  NaN and infinities are outside the model except where a definition says otherwise. Exception: gs, gs_vec, gs_many and the tree communication are also treated with an arbitrary operation (C61, C66–C68), which includes rounding
  (for C61, igs for the pairwise method only; for entries that the transposed gs leaves unchanged C61 says that the result combines that one value, possibly with the identity).
* Property theorems live in `Verif/Props/*.lean`, apart from model (`Verif/Model/*.lean`), specifications (`Verif/Spec/*.lean`)
  and helper lemmas (`Verif/Lemmas/*.lean`). Each theorem has a non-vacuity `example` next to it.

## Trusted base

* Lean 4.33.0 kernel; axioms at most `propext`, `Classical.choice`, `Quot.sound` (no others, no `native_decide`).
* That the definitions in `Verif/Model` say what the cited C lines do (read by hand; nothing is run).
* MPI: point-to-point messages between a matched send and receive arrive intact and in order; reductions provided by
  MPI itself (`MPI_Allreduce`) are assumed, only gslib's own tree is modelled. `malloc` never fails (gslib aborts).
* Not modelled: timing (`comm_time`: in gs_auto the measured times are arbitrary numbers, C64), printing,
  floating-point rounding (except C61, C66, C68, C70-C76), MPI derived datatypes, alignment of pointers beyond `align_as`. See the coverage table below.

## Coverage

| C source | modelled in | not modelled |
|---|---|---|
| sort.c, sort_imp.h | `Model/Radix`, `Model/MergeSort`, `Model/HeapSort`, `Model/Sort`; on bytes with strides `Model/SortMem` | bytes of the work space; in-place sortv on bytes |
| sarray_sort.c/.h | `Model/SarraySort`, `Model/SortMem` | - |
| crystal.c | `Model/Crystal` | `crystal_init/free` |
| sarray_transfer.c/.h | `Model/Transfer` | - |
| comm.c, comm.h (scan_imp, allreduce_imp) | `Model/CommTree` | wrappers around MPI calls |
| gs_defs.h, gs_local.c kernels | `Model/GsOp`, `Model/GsKernel` | - |
| gs.c: topology | `Model/GsTopo`, `Model/GsUnique` | - |
| gs.c: exchange methods, gs_setup, gs, gs_vec, gs_many | `Model/GsExec`, `Model/GsCr`, `Model/Gs`, `Model/GsAuto` | verbose output |
| gs.c: igs*, gs_wait, handle table; Fortran interface | `Model/Nb`, `Model/GsNb`, `Model/HandleTable`, `Model/Fgs` | fgs_unique, Fortran strings |
| mem.h (array, buffer, align_as) | `Model/DynArray`, `Model/Mem` | `malloc` itself |
| poly.c, poly_imp.h | `Model/Lagrange`, `Model/Legendre`, `Model/Quad`, `Model/GllLag`, `Model/GllSetup`, `Model/GllTable`; with rounding `Model/LagFl`, `Model/LagDerFl` (`lagrange_eval`), `Model/LegFl` (Legendre polynomials) | rounding of the quadratures |
| lob_bnd.c/.h | `Model/LobBnd` | validity of the table for n>24 or m<4n (hypothesis `ValidTable`; proved for 2<=n<=24, m>=4n) |
| obbox.c/.h | `Model/Obbox` | alignment of the block; overflow of size products |
| tensor.c/.h | `Model/Tensor`; with rounding `Model/TensorFl`, `Model/TensorGradFl`, `Model/CommDot` | BLAS |
| findpts_local.c, findpts_local_imp.h hash | `Model/Hash` | see C42-C46 |
| findpts_local_imp.h map_points_to_els, findptsms_local | `Model/FindptsLocal` | `findpts_el` and `obbox_test` are parameters here |
| findpts_imp.h findpts (findptsms with ims=0), findptsms with ims=1, findpts_eval | `Model/Findpts`, `Model/FindptsMs`, `Model/FindptsEval`; with byte strides in the memory of the caller: `Model/Strided`, `Model/StridedMs`, `Model/StridedEval` | strides of a repeated findpts_eval |
| findpts.c bits, findpts_imp.h hash_build (set_local_mask, fill_hash, table_from_hash) | `Model/GlobalHash`, `Model/Rec`, `Model/FindptsSetup` (hash_bb, setupms_aux) | `pow` (a function `root`; the real power in `hash_n_least`) |
| findpts_el_2.c, findpts_el_3.c | `Model/ElFlags`, `Model/LinSolve`, `Model/FindptsDrv` (driver, seed), `Model/Newton2`, `Model/Newton3` (steps, exact arithmetic), `Model/ElWork`, `Model/ElGroup2`, `Model/ElGroup3` (kernels, data of faces, edges and corners, work arrays, whole `findpts_el_2/3` and `findpts_el_eval_2/3`) | rounding; contents of the scratch array `temp` after `tensor_i2` / `tensor_ig2` |

Simplifications are stated at each definition. `Model/Mpi`, `Model/Coll`, `Model/Outcome`, `Model/NumMem` are the vocabulary.

## Plan per property

| id | what is modelled | how it is proved |
|---|---|---|
| C01 | radix_count/offsets/zeros/pass, radix_sortv; MERGE_SORT bit-stack control, merge_sortv; sortv dispatch | radix: each counting pass equals a stable sort on the digit (counts = offsets invariant), LSD induction over digits; merge: loop invariant over the stack |
| C02 | sortp without start perm, index/value pairs | as C01 on pairs with stability |
| C03 | sortp with start perm | same, starting order q; LSD composition lemma |
| C04 | both branches | uniqueness of the stable sort |
| C05 | heap_sortv on arrays | heap invariant; permutation by swaps |
| C06 | sarray_permute_ with -p-1 marks | cycle-walk invariant, termination by number of unmarked entries |
| C07 | sarray_sort_k macros = sortp chain + permute | C02, C03, C06 |
| C08 | sarray_perm_invert | direct |
| C09 | crystal_router over P processes, messages as records and as flat words | induction over bisection stages: global multiset invariant + group invariant |
| C10 | partner computation (bl,bh,targ,recvn) | arithmetic over group intervals |
| C11 | crystal_move on flat word buffers | induction over messages |
| C12 | pack_int, router, unpack_int | pack/unpack round trip + C09 |
| C13 | two transfers | C12 twice |
| C14 | pack_more/unpack_more | round trip |
| C15 | cap_rows, num_rows | negation with witness (wrong sign), partial for n<=max |
| C16 | pack_ext | as C12 |
| C17 | scan_imp | induction on tree levels |
| C18 | allreduce_imp | induction on tree levels |
| C19 | ops on BitVec, bpr bit loop | BitVec algebra; bpr characterised as longest common binary prefix |
| C20-C22 | gs_setup pipeline (nonzero_ids, unique, shared ids, maps) and gs_aux exec | characterise the maps; commutative-monoid sums over groups |
| C23 | make_topology_unique, gs_unique | counting owners |
| C24 | gather/scatter/init kernels in 5 modes | component projection commutes with kernels |
| C25 | pw_exec, cr_exec, allreduce_exec | each equals the abstract group reduction |
| C26 C27 | igs/gs_wait handle table and deferred execution | state-machine invariant |
| C28 C29 | Fortran handle tables, argument checks, address arithmetic | state-machine invariant; negation with witness for dom=3 stride |
| C30 C31 | array_reserve_, array_cat_, align_as_ | induction over op lists; arithmetic |
| C32 C33 | lagrange_eval loops over a field | prefix/suffix product invariants; Mathlib Lagrange |
| C34 C35 | legendre*, nodes symmetric fill | induction |
| C36 | tensor kernels | sum manipulation |
| C37 | lob_bnd kernels and `lob_bnd_setup` over an ordered field | interval arithmetic lemmas; validity of the table for 2<=n<=24, m>=4n over the reals from certificates on the second derivative of the basis polynomials, see below |
| C38 | the set-up blocks as separate arrays of the sizes given by the size functions; every access checked | runs of the code that use them (C36, C37, C39, C44, C49, C52); layout of the block by arithmetic |
| C39 | obbox test/calc | runs of the patches with an abstract bounding function; extrema of maps with nonzero Jacobian lie on the boundary (over the reals) |
| C40 C41 | hash functions with floor/ceil over a floor field, CSR build | invariant of counting fill |
| C42 C43 | candidate merge, routing through transfers | fold invariant, C12/C13 |
| C44 C45 | newton step clipping, trust region | case analysis over an ordered field |
| C46 C47 | counting sort by flags, helper maps | counting-sort lemma; finite case analysis |
| C48 | lin_solve, mat_inv | field_simp/ring |
| C49 | eval routing and cache state machine; the element kernel | C12/C13; negation witness for stale cache; sums over nodes |
| C55 | findptsms with several sessions: rows returned by the owners, sorted by session and point; the loop with current-session and all-session winners | loop invariant over the sorted rows; the same routing as C42 |
| C56 | step functions of C44/C45 (exact arithmetic), converged flag included | the active set loop stops where the free coordinates have zero slope; face and edge models are minimised exactly, so their slope at the minimum bounds the true slope by step length times curvature |
| C57 | `Model/Quad` (exact arithmetic; `Spec/QuadExact`: a rule is exact for `q'` iff it gives `q(1)-q(-1)`) | orthogonality of P_n from Rodrigues' formula by parts; interpolatory rule; the weights from the rule applied to the derivative of `(1+x)(P_n/(x-z))²`, resp. `(1+x)²(1-x)(P_N'/(x-z))²`; the tabulated orders by rational evaluation of all moments in the kernel (the domain is finite: 23 orders) |
| C58 | `Model/Quad`: the Newton iteration with arbitrary starting values (`cos` is not modelled), over the reals | P_n and P_n' have only real zeros (Rolle), so some zero is within deg·|f/f'| of any point; the zeros are separated by an explicit distance (sum of inverse squares from the differential equation); error of the last Newton step |
| C59 | composition of obbox_calc, the hash tables, findpts / findptsms | C37 + C39 (points strictly inside the expanded boxes) + C40-C42, C55; the element search is any function acting point by point |
| C60 | `Model/Strided`, `Model/StridedMs`, `Model/StridedEval`: findpts_local (public and findptsms_local), findpts, findptsms, findpts_eval on a memory of bytes, addresses as computed by `AT` (32-bit product) or by adding strides | simulation of the list model (`Lemmas/CollSim`, `StridedLocal`, `StridedFp`, `StridedMs`, `StridedEval`), with the invariant that only bytes of results change; then C42, C43, C55 |
| C61 | model of C20, any operation (`Spec/Combine`) | the exchange theorems need a commutative monoid: they are applied to the free one (multisets of pinned values, `Lemmas/Combine`), and a relational parametricity theorem for the executors (`Lemmas/Param`, `GsParam`) transfers the result to the actual operation; error bound by induction on `Combines`; independence of buffers and igs with the pairwise method: the run on `Option` data with empty buffers (`none` is an unwritten cell) is related to every run on actual buffers (`Lemmas/GsBuf`), the nonblocking schedule by C26's `nb_all` (`Lemmas/GsBits`) |
| C62 | `Model/SortMem`: sortp, sortv, sarray_permute, sarray_sort on a memory of bytes; offsets and sizes in the buffer | the functions equal those of `Model/Sort`, `Model/SarraySort` on the list of keys and rows when no 32-bit product wraps; arithmetic for the buffer. The buffer is another block than the array; permutation and work space are typed arrays in it |
| C63 | `Model/FindptsSetup`: findpts_setup as one program (boxes, local table, three reductions, distributed table); the data of findpts are read from the memory it leaves | runs of the parts composed (`Lemmas/FindptsSetup`); the reductions by C18 equal the model of C41; then C42, C55, C59 |
| C64 | `Model/GsAuto`: gs_setup with gs_auto as one program: set-up of the three methods, 12 trial exchanges with each (mode_dry_run), three comm_allreduce of the times, comparisons | runs composed from those of the parts (the exchange lemmas `Exch` for the dry kernels); the handles equal those of gs_setup with the outcomes of the comparisons as parameters (C20-C25 apply). Times are arbitrary elements of an ordered field, sums exact (the sum is not used). buffer_reserve before every trial exchange instead of once, MPI_Barrier omitted (more schedules). The exchange data are parameters of the program which must agree with the data in memory (a run with other data is undefined behaviour) and do not depend on the clocks |
| C65 | nothing new: two or three programs (gs_setup, gs, gs) of `Model/Gs` one after the other | the result of each gs is `Spec.gsResult` (C20-C22); the identities are then finite sums over the entries (Lemmas/GsAlg): exchange of sums, grouping by id |
| C66 | nothing new (`Model/CommTree`) | the value of each node of the tree is defined without associativity (`tval`, Lemmas/CommBits) and the lockstep run is computed with it; by induction on the tree it is a bracketing of the values of the ranks of the node, of depth at most clog2 of their number |
| C67 | model of C20, any operation | `Lemmas/GsIndep`: the run on `Option` data with empty buffers (`none` = unwritten) is related to every run on actual buffers, for the crystal router (halves of the buffer, stage sizes from `CrOk`) and the all-reduce too, per process relations since buffer sizes differ; copies (`Lemmas/GsCopies`): the last scatter of gs copies the value of the first entry; the tree leaves the same array on all processes (C66), read with the ordinals |
| C68 | `comm_dot`, `tensor_dot` with rounded steps, `comm_reduce` | `Props/CommDot`: a local step, then the tree of C66; local error by induction on the loop, composed with the error of a bracketed sum |
| C69 | `Model/HashWrap`: the functions of C40 with 32-bit unsigned arithmetic and partial conversions | equal to the model of C40 under the inequality (`Lemmas/HashWrap`: loop congruence with invariants); two counterexamples outside of it |
| C70 | `Model/HashFl`: the functions of C40 with every floating point operation followed by a monotone rounding of relative error `u` | a gap of `4u` widths survives `(x-low)*fac` (`scaleFl_lt`), so index and range agree; table construction as in C40 |
| C71 | `Model/TensorFl`: `tensor_dot`, `tensor_mxm`, `tensor_mtxv`, `tensor_i2` and the second half of `findpts_el_eval_2/3` with an arbitrary `s + x*y` | `Apx u k`: value after `k` roundings; closed under sums, products and one more rounding (`Lemmas/TensorFl`) |
| C72 | `Model/LagFl`: `lagrange_eval` (values), `lagrange_coef`, then `findpts_el_eval_2/3` with these weights | `Rel u k`: relative error of `k` roundings, closed under products and inverses (`Lemmas/LagFl`); weights are products of rounded differences, so no cancellation; combined with C71 by `Apx` |
| C73 | `Model/ObboxFl`: `obbox_test_2/3` with a rounding after every operation; sums of products by any evaluation order or contraction | rounding keeps signs, so `(x-a)(b-x) >= 0` is decided exactly; `Apx` for `A (x-c0)`; C39 strengthened: points of the element satisfy `|A (x-c0)| <= 1/(1+tol)`, composed with the box of `obbox_calc_2/3` (computed exactly) |
| C74 | `Model/TensorGradFl`: `tensor_ig1/2/3` on the kernels of C71 | loops rewritten as folds (as in C71), then `Apx` for the nested sums; the weights of each component appear in the statement |
| C75 | `Model/LagDerFl`: `lagrange_eval` with der=1 and der=2, weights of C72 | recurrences for u1, v1, u2 and v2 by induction along the list with `Apx` (a value, its exact value, a bound that has the sign-free products); the exact values are sums of products without one or two factors (`dsum`, `dsum2`), which append to the derivative of the product of the other factors |
| C76 | `Model/LegFl`: the loops of `legendre`, `legendre_d1`, `legendre_d2` with rounding | the invariants of C34 with `Apx` (4 roundings per step); bounds by the same recurrence with all terms added |
| C50 C51 | size guards, hash_opt_size, bit helpers | arithmetic |

## Findings (places where the code violates the English claim)

"proved" names the theorem that exhibits the failure in the model; the others were found by reading and their code is not modelled (yet).

1. `cap_rows` (sarray_transfer.c) subtracts `maxn-n` instead of `n-maxn`. (proved, C15)
2. `gs_bpr` on 64-bit domains truncates to `uint`. (proved, C19)
3. `fgs_fields` uses `gs_dom_size[*dom-1]`: wrong stride for dom=3. (proved: `fields_addresses_slong_wrong`)
4. crystal-router method leaves the non-blocking function pointers unset. (proved: `igs_crystal_undefined`)
5. `figs_many` keeps a pointer to a stack array.
6. Non-blocking all-reduce with `gs_bpr` copies the wrong buffer.
7. Outstanding `igs` calls with a null buffer share one static buffer.
8. `gs_wait` on an already finished handle dereferences null. (proved: `nonblocking_wait_unchecked`)
9. transpose=1: a flagged primary is modified by the local gather when a process holds only flagged entries.
   (proved: `gs_transpose_changes_flagged`)
10. `findpts_eval` reuses the stale saved pattern when its point arguments change. (proved: `findpts_eval_stale`)
11. hash tables: a point exactly on the upper face of a box, when this face lies exactly on a cell boundary, is in a cell
    that does not list the element. (proved, C40)
12. `sarray_transfer` of rows that consist of the processor field only divides by zero (`num_rows`). (proved, C12)
13. `cap_rows`: `max*row_size` wraps at 2^32 (a very large caller capacity is then treated as a small one; proved: `fixed_transfer_capacity_wraps`).
14. an element box of zero thickness at the upper bound of all boxes is hashed outside of the table. (proved, C40)
15. `gs_setup` with `unique=1` and a flagged entry in front of the first unflagged entry of the same id: the flagged entry
    contributes. (proved: `gs_setup_unique_flagged_first`)
16. `comm_scan` combines the contributions in an order that is not the rank order when P is not a power of two; harmless for
    commutative operations. (proved, C17)
17. the identity of min/max on floating domains is the largest finite number, so a reduction of infinities is wrong. (bound in C19)
18. `array_reserve` growth wraps for huge counts (proved, C30); `tensor_mtxv` with `nx=0` reads its input (proved, C36);
    `lobatto_quad` with `n=1` uses uninitialised memory (proved, C35); `gauss_quad` with `n=0` writes `w[0]`.
19. `hash_count` wraps modulo 2^32: 65536 elements with the same bounding box and a size limit of 5 per element get a table of 65537 entries for 2^32 entries, and the heap is overwritten (`hash_table_overflow`).
    With `max_size==nel`, `nu=0` and `nu-nl` wraps: undefined for all elements (`hash_limit_eq_nel_undefined`).
20. `gs_vec` with `vn=0` never terminates; `allreduce_free` leaks `ard->req`.
21. `igs` with the all-reduce method: without `GSLIB_USE_NBC` the program aborts (proved: `igs_allreduce_aborts`); with it, `gs_wait` waits for a request that was
    never started when no id is shared (`gvn = 0`) and for `np = 1` the request of the MPI call is never waited for.
22. two outstanding operations on the same gs handle overwrite each other's request array (pairwise); excluded in C26 by requiring distinct handles.
23a. `lob_bnd_setup` with n=3 and m<=3 gives a table that is not a bound: the interval of `lob_bnd_1` misses values (proved: `lob_bnd_wrong_for_m_3`, `lob_bnd_wrong_for_m_2`); the header only says "we expect m>n".
    `m>n` is not enough either: n=4, m=5 with the doubles of the Chebyshev nodes (proved: `lob_bnd_wrong_for_m_5`). By sampling, the table is invalid for m up to about 1.7n; it is proved valid for m>=4n (`lob_bnd_setup_valid`), the choice `mr=4*nr` of the documentation.
23b. `lob_bnd_lin_3` uses its output as intermediate storage and overruns it when `ns*nt > ms*mt` (proved: `lob_bnd_lin_3_overrun`).
23c. `obbox_calc` bounds only the boundary of an element: a folded element can stick out of its box (proved: `obbox_calc_2_misses_interior`). C39 is proved for elements with nonzero Jacobian inside.
24. `newton_area` (findpts_el_2.c) does not solve its trust region problem when it starts on the boundary of the element: a bound met with a zero move
    is never released (proved: `newton_area_boundary_not_exact`; from inside it is exact: `newton_area_exact`).
25. when the search of a point ends with a small step, the reported `dist2` is that of the position before this step (example in `Props/Newton2`).
26. `findptsms` converts the cell number to `uint` before reducing it modulo the number of processes, `fill_hash` does not: with more than 2^32 cells in total and a number of processes not dividing 2^32,
    points are sent to the wrong process and lost (proved: `findpts_route_truncated`).
27. a process without elements has the bound `[0,0]`, its cell width is zero and `hash_index` converts a non-finite double to `long` (undefined in C; `LocalSetup` assumes that the cell read is an empty one).
28. `newton_vol` (findpts_el_3.c) does not solve its trust region problem, not even from the centre of the element: when two constraints are released at once the `switch` has no case for zero constraints and the
    loop is left on both bounds with no constraint recorded (`newton_vol_not_exact`).
29. `findptsms` compares the winners of different sessions by the distance function `disti` only (findpts_imp.h:478, 488): a result on the border of an element of one session (at a positive distance) replaces a result inside an
    element of another session if its `disti` is larger (`findptsms_border_beats_internal`).
23. `ffindpts_setup` in 3D passes uninitialised pointers for the session id and distance function (`nsid`, `distfint`).
30. A search can be reported as converged (`CODE_BORDER` with a positive distance) at a corner that is not the nearest point of the element: `newton_area` and `newton_vol` test a constraint for release by `dr[d]*y[d]<0` (findpts_el_2.c:457,
    findpts_el_3.c:696), which is never true for a constraint met at once (`dr[d]=0`). In the parallelogram `x=r-s, y=s/2` the search for (-1/10,21/20), started from the nearest node (1,1), stops there with squared distance 5/16; the point
    (9/10,1) has 121/400 (`converged_not_nearest`, and `converged_not_nearest_3` for the prism).
31. The macro `AT` (findpts_imp.h:405, 620; findpts_local_imp.h:249) multiplies two 32-bit numbers: an array whose last point begins 4 GB or more behind the first wraps. With structs of 64 bytes the result of point 2^26 that
    arrives from another process is stored in the variables of point 0 (`findpts_stride_wraps`). The loops over all points add strides to pointers and do not wrap, so the two disagree. Likewise a negative Fortran stride is
    converted to `unsigned` and advances by about 4 GB.
32. `findpts_local` allocates four blocks per call (findpts_local_imp.h, `tmalloc`) that are not freed; `ffindpts_setup` in 2D does not free `nsid`, `distfint`. `hash_index_aux` converts `floor` of a double to `sint`: undefined for points far
    outside of the bounds (in the model: exact integers).
33. In floating point the copies of one id on different processes can differ after gs with the pairwise exchange: every process starts with its own value and adds the others. Values 3, 3, 6 on three processes, rounded
    to three binary digits, give 12, 12, 8 (`gs_copies_can_differ`). Each result is within the bound of C61. With the all-reduce method all copies are equal, and with every method the copies on one process are (C67).
34. `INDEX_PTR` (sort_imp.h:30) multiplies two 32-bit numbers. Sorting an array of structs of 4 GB (2^26 structs of 64 bytes; 2^29 ulong) computes the address of its beginning as its end: the loop of
    radix_count runs out of the array (`sortp_four_gigabytes`). For other sizes above 4 GB it stops too early, and keys are read at wrong places.
35. sort_imp.h:484, 495, 537: `2*n*sizeof(sort_data)` computes `2*n` with 32 bits. For n >= 2^31 the buffer is too small for the work space (`sortp_buffer_wraps`: for n = 2^31 it ends where the work space begins).
36. `findpts_setup` with `global_hash_size` 0 on all processes: `hash_n` is 0 and `hash_index` computes `hash_n-1` as an unsigned number; a process without elements contributes the point 0 to the global bound (`setup_bound`):
    harmless for the result, but the table of a mesh far from the origin becomes coarse.

## Message passing

`Verif/Model/Mpi.lean`: a process is a list of steps (local computation, post sends and receives, wait for all, local
computation). `Trans` lets any process move at any time; messages with equal (source, destination, tag) are received in
order. `Spec.AllSchedules prog P s0 Q` says: no infinite execution, no execution stops before all processes have ended (also
when sends complete only when the matching receive is posted), and every complete execution ends in a state satisfying `Q` with no message left. It is
derived from a lockstep execution (`lockRun`) and a matching condition by a general confluence theorem (`Lemmas/Mpi.lean`, `Lemmas/Coll.lean`).
`Verif/Model/Coll.lean` composes collective operations in sequence; a process may enter the second while others are in the first.

## Struct array transfer

`Verif/Model/Transfer.lean` works on bytes and words: rows are byte strings, the router buffer is a list of 32-bit words, packing writes
bytes at byte offsets into freshly reserved memory with arbitrary contents, 32-bit products (`size*perm[i]`, `n*(row_size+3)`, `max*row_size`)
are computed modulo 2^32 or are undefined behaviour when they wrap. Simplification: a column with `size[i]=0` is a list of empty rows.

## Tree communication (`Model/CommTree`)

`comm_scan` and the hand-written `comm_allreduce` are programs over P processes with one step per tree level. Theorems hold for every P;
the all-reduce needs a commutative monoid (C15, C17); for any operation at all C66 says what the tree computes. Finding 16 is about `comm_scan`.

## Gather-scatter

* Operations (`Model/GsOp`): integer domains are `BitVec w`; `double`/`float` are a linear order with exact arithmetic. All theorems about `gs` are for any
  domain and any set of values on which the operation is a commutative monoid (`Spec.CommMonoidOn`); C19 shows this for the integer domains.
* Kernels (`Model/GsKernel`): the maps (lists of indices terminated by `UINT_MAX`) are interpreted entry by entry; a bad index is undefined behaviour.
  The three layouts (gs, gs_vec, gs_many) are records `Kernels U T`; `Rep` (Lemmas/GsRep, GsRepMany) says that a layout represents a list of values.
* Topology (`Model/GsTopo`): nonzero_ids, unique_ids, shared_ids with the two transfers (the byte-level transfer model of C12), comm_scan for the ordinals. `TopoOk` is the
  closed form of the result.
* Exchange: pairwise (`Model/GsExec`), all-reduce, crystal router (`Model/GsCr`: cr_schedule, the learning phase crl_*, cr_exec). For every method the lemma `Exch` says that the exchange
  adds to every primary the reduction of the other processes' contributions; gs_aux around it gives `gsVal`, shown equal to the specification `Spec.gsResult`.
* gs_setup (`Model/Gs`): the three methods and gs_auto (the two time comparisons are arbitrary booleans; `Model/GsAuto` has the trial exchanges, the reductions of the times and the comparisons, C64). `Props/Gs.lean` has C20-C22, C24, C25.
* make_topology_unique (`Model/GsUnique`): closed form in Lemmas/GsUniq*; the owner of id `a` is process number `a mod m` among the `m` processes with an unflagged entry. C23, C54.

* Nonblocking (`Model/Nb`, `Model/GsNb`): a program of a process is a list of `igs`/`wait` events; an operation is given by three parts (start: local work, sends posted; wait: receive, local work).
  `Spec/Nb.lean` defines all interleavings of the processes and of the message deliveries; `nb_all` (Lemmas/NbAll) reduces every schedule to the operations executed one by one. `Model/GsNb` gives the
  parts of gs_aux_irecv/isend/wait for the pairwise and all-reduce methods. Simplifications: one domain per program; a message is written to the receive buffer when the
  operation is waited for (the buffers of outstanding operations are disjoint, so this is not observable); undefined behaviour and aborts are processes that cannot move.
* Handle tables (`Model/HandleTable`, `Model/Fgs`): the table of nonblocking handles and the Fortran handle tables (gs, crystal, findpts use the same code pattern) as state machines over histories of calls.

## Numerics

Polynomials, quadrature, tensor products, linear solves: over an arbitrary field (ordered or real where needed); memory is a function from addresses to values with
undefined behaviour for reads of uninitialised cells (`Model/NumMem`) in the functions that build tables in place.

Bounds (`Model/LobBnd`): one memory holds output and work arrays at given offsets, so overlaps would be seen; `Spec/LobBnd` defines the tensor polynomials and piecewise linear interpolation.
The proof writes a point as an average of nodes (`Lob.Dir`) and carries enclosures through the directions. `cos` is a parameter `ch` (`Real.cos` in `cheb_spacing`, `lob_bnd_quadratic`).

Validity of the table (`Props/LobValid`): on each segment of `h` the lines through the table entries bound the basis polynomial if the second derivative has constant sign there (chord and tangent at the midpoint), or if it
changes sign slowly against the neighbouring tangents (`Lemmas/LobSeg`: conditions on the second and third derivative, in terms of the lengths of adjacent segments, which for Chebyshev nodes are bounded in `Lemmas/LobCheb`). The condition
`Good` (`Lemmas/LobGood`) is independent of `m` for m>=4n. It is checked on a partition of [-1,1] into cells per n by integer arithmetic: `Lemmas/LobCert`, `LobCell`, `LobRow` prove that the Boolean check implies `Good`, and the generated
files `Lemmas/LobCert4` to `LobCert24` run the check by `decide +kernel` (kernel reduction on natural numbers with the kernel's GMP arithmetic; no compiled code). The tables of rational bounds for trigonometric values in `LobTab` are also proved there.
The node values are the decimal constants of poly.c (as rationals), not the exact Gauss-Lobatto nodes.

`Model/Obbox` is `obbox_calc_2/3` with memory: patches (edges, faces) are bounded by `lob_bnd_1/2` and merged. `Lemmas/ObboxRun` proves the run for any bounding function with the contract `BndOk`,
`ObboxCalc(3)` instantiates it, `ObboxReal` is the calculus (an extremum inside would make the Jacobian singular), `Props/Obbox` states C39 with derivatives from Mathlib (`Spec/Obbox`).
A division by zero makes the model's result `none`; the theorems show that it does not occur.

## Hash table (`Model/Hash`)

Floor/ceil over a floor field; the table is the CSR array of findpts_local; completeness (C40) under the condition that excludes findings 11 and 14, both proved as counter-theorems.

## findpts (`Model/FindptsLocal`, `Model/Findpts`)

The search in one element is a parameter `find` that acts point by point (this is C46), the oriented box test is a Boolean parameter (C39). The three transfers are the modelled `sarray_transfer`/`sarray_transfer_ext` on
records of doubles (bit patterns) and `uint`s. `findpts_best` composes the construction of the distributed table (all schedules) with the search (all schedules).
