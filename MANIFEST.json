{
 "claims": [
  {
   "property": "C01",
   "status": "proved",
   "theorems": [
    "Gslib.Props.sortv_sorts",
    "Gslib.Props.sortv_real_sorts"
   ],
   "note": "radix (n>=256) and merge branches, integer keys of any byte width, real keys in any linear order (no NaN)"
  },
  {
   "property": "C02",
   "status": "proved",
   "theorems": [
    "Gslib.Props.sortp_stable",
    "Gslib.Props.sortp_real_stable"
   ],
   "note": ""
  },
  {
   "property": "C03",
   "status": "proved",
   "theorems": [
    "Gslib.Props.sortp_start_perm_stable",
    "Gslib.Props.sortp_real_start_perm_stable"
   ],
   "note": ""
  },
  {
   "property": "C04",
   "status": "proved",
   "theorems": [
    "Gslib.Props.sortp_radix_eq_merge",
    "Gslib.Props.sortv_all_equal"
   ],
   "note": ""
  },
  {
   "property": "C05",
   "status": "proved",
   "theorems": [
    "Gslib.Props.sortv_in_place_sorts",
    "Gslib.Props.sortv_real_in_place_sorts",
    "Gslib.Props.sortv_in_place_stride_abort"
   ],
   "note": ""
  },
  {
   "property": "C06",
   "status": "proved",
   "theorems": [
    "Gslib.Props.sarray_permute_correct"
   ],
   "note": ""
  },
  {
   "property": "C07",
   "status": "proved",
   "theorems": [
    "Gslib.Props.sarray_sort_lexicographic",
    "Gslib.Props.tuple_sort_lexicographic",
    "Gslib.Props.tuple_sort_invalid_key"
   ],
   "note": "any number of fields; Fortran ituple and tuple sorts included"
  },
  {
   "property": "C08",
   "status": "proved",
   "theorems": [
    "Gslib.Props.perm_invert_correct",
    "Gslib.Props.permute_invert_roundtrip"
   ],
   "note": ""
  },
  {
   "property": "C09",
   "status": "proved",
   "theorems": [
    "Gslib.Props.crystal_router_delivers",
    "Gslib.Props.crystal_router_delivers_or_aborts"
   ],
   "note": "all P, all message lists, all schedules of the asynchronous message-passing semantics in Verif/Model/Mpi.lean; 32-bit message-length guard and wrap of the buffer length modelled"
  },
  {
   "property": "C10",
   "status": "proved",
   "theorems": [
    "Gslib.Props.crystal_router_matching",
    "Gslib.Props.crystal_router_no_deadlock"
   ],
   "note": "also with rendezvous (synchronous) sends"
  },
  {
   "property": "C11",
   "status": "proved",
   "theorems": [
    "Gslib.Props.crystal_move_splits"
   ],
   "note": "flat word buffers compacted in place; overlapping memcpy and out-of-bounds access are undefined behaviour in the model"
  },
  {
   "property": "C50",
   "status": "proved",
   "theorems": [
    "Gslib.Props.crystal_router_no_oversized_message",
    "Gslib.Props.crystal_router_aborts_when_too_long",
    "Gslib.Props.crystal_router_delivers_or_aborts"
   ],
   "note": ""
  },
  {
   "property": "C12",
   "status": "proved",
   "theorems": [
    "Gslib.Props.sarray_transfer_delivers",
    "Gslib.Props.sarray_transfer_unchanged",
    "Gslib.Props.transfer_of_bare_field_divides_by_zero"
   ],
   "note": "all schedules; rows with at least one byte besides the processor field (a bare field divides by zero, proved); all rows together below INT_MAX bytes"
  },
  {
   "property": "C13",
   "status": "proved",
   "theorems": [
    "Gslib.Props.transfer_there_and_back",
    "Gslib.Props.transfer_there_and_back_sorted"
   ],
   "note": "all schedules"
  },
  {
   "property": "C14",
   "status": "proved",
   "theorems": [
    "Gslib.Props.sarray_transfer_many_delivers",
    "Gslib.Props.tuple_transfer_delivers"
   ],
   "note": "any number of arrays"
  },
  {
   "property": "C15",
   "status": "partial",
   "theorems": [
    "Gslib.Props.fixed_transfer_within_capacity_partial",
    "Gslib.Props.fixed_transfer_overflow",
    "Gslib.Props.fixed_transfer_overflow_witness",
    "Gslib.Props.fixed_transfer_capacity_wraps"
   ],
   "note": "the code is wrong above the capacity (cap_rows has the wrong sign): proved that rows are written out of bounds"
  },
  {
   "property": "C16",
   "status": "proved",
   "theorems": [
    "Gslib.Props.sarray_transfer_ext_delivers"
   ],
   "note": ""
  },
  {
   "property": "C17",
   "status": "proved",
   "theorems": [
    "Gslib.Props.comm_scan_prefix",
    "Gslib.Props.comm_scan_int",
    "Gslib.Props.comm_scan_add",
    "Gslib.Props.comm_scan_not_rank_order",
    "Gslib.Props.comm_tree_matching"
   ],
   "note": "all schedules; commutative monoids (with a non-commutative operation contributions are combined out of rank order, proved)"
  },
  {
   "property": "C18",
   "status": "proved",
   "theorems": [
    "Gslib.Props.comm_allreduce_reduces",
    "Gslib.Props.comm_allreduce_int",
    "Gslib.Props.comm_reduce_reduces",
    "Gslib.Props.comm_tree_matching"
   ],
   "note": "gslib's own tree, all schedules; MPI_Allreduce itself is trusted"
  },
  {
   "property": "C19",
   "status": "proved",
   "theorems": [
    "Gslib.Props.gs_op_commutative_monoid",
    "Gslib.Props.gs_op_commutative_monoid_any_uint",
    "Gslib.Props.gs_bpr_is_common_prefix",
    "Gslib.Props.gs_bpr_wide_domain",
    "Gslib.Props.gs_bpr_truncates_wide_domains",
    "Gslib.Props.gs_op_real",
    "Gslib.Props.gs_min_identity_needs_bound",
    "Gslib.Props.gs_gather_array_pointwise"
   ],
   "note": "wrapping integer arithmetic; bpr on domains wider than uint drops high bits (proved)"
  },
  {
   "property": "C30",
   "status": "proved",
   "theorems": [
    "Gslib.Props.array_reserve_sufficient",
    "Gslib.Props.array_history",
    "Gslib.Props.array_initial",
    "Gslib.Props.array_reserve_wraps_silently"
   ],
   "note": "byte-level blocks, size_t modulo 2^64; the last theorem shows the overflow hypothesis is needed"
  },
  {
   "property": "C31",
   "status": "proved",
   "theorems": [
    "Gslib.Props.align_as_least",
    "Gslib.Props.align_layout_disjoint"
   ],
   "note": "size_t modulo 2^64"
  },
  {
   "property": "C36",
   "status": "proved",
   "theorems": [
    "Gslib.Props.tensor_mxm_eq",
    "Gslib.Props.tensor_mtxm_eq",
    "Gslib.Props.tensor_mxv_eq",
    "Gslib.Props.tensor_mtxv_eq",
    "Gslib.Props.tensor_mtxv_empty",
    "Gslib.Props.tensor_i1_eq",
    "Gslib.Props.tensor_i2_eq",
    "Gslib.Props.tensor_i3_eq",
    "Gslib.Props.tensor_ig1_eq",
    "Gslib.Props.tensor_ig2_eq",
    "Gslib.Props.tensor_ig3_eq",
    "Gslib.Props.tensor_2t_eq",
    "Gslib.Props.tensor_3t_eq"
   ],
   "note": "exact arithmetic; work arrays bounds-checked; naive BLAS versions"
  },
  {
   "property": "C47",
   "status": "proved",
   "theorems": [
    "Gslib.Props.el2_flags",
    "Gslib.Props.el2_bin_injective",
    "Gslib.Props.el2_index_surjective",
    "Gslib.Props.el3_flags",
    "Gslib.Props.el3_bin_injective",
    "Gslib.Props.el3_index_surjective"
   ],
   "note": "all 9 / 27 configurations, which is the whole domain"
  },
  {
   "property": "C48",
   "status": "proved",
   "theorems": [
    "Gslib.Props.lin_solve_2_correct",
    "Gslib.Props.lin_solve_sym_2_correct",
    "Gslib.Props.lin_solve_3_correct",
    "Gslib.Props.mat_inv_2_correct",
    "Gslib.Props.mat_inv_3_correct"
   ],
   "note": "any field (exact arithmetic)"
  },
  {
   "property": "C32",
   "status": "proved",
   "theorems": [
    "Gslib.Props.lagrange_interpolates",
    "Gslib.Props.lagrange_eval_correct"
   ],
   "note": "lagrange_setup then any history of evaluations, exact arithmetic in a field of characteristic not 2, memory bounds and initialisation included; compared with Mathlib's Lagrange.basis."
  },
  {
   "property": "C33",
   "status": "proved",
   "theorems": [
    "Gslib.Props.lagrange_eval_correct",
    "Gslib.Props.lagrange_derivatives"
   ],
   "note": "First and second derivative rows are the derivatives of the value row (Mathlib polynomial derivative), any history."
  },
  {
   "property": "C34",
   "status": "proved",
   "theorems": [
    "Gslib.Props.legendre_correct",
    "Gslib.Props.legendre_d1_correct",
    "Gslib.Props.legendre_d2_correct",
    "Gslib.Props.legendre_recurrence",
    "Gslib.Props.legendre_one",
    "Gslib.Props.legendre_parity",
    "Gslib.Props.legendre_ode"
   ],
   "note": "Against Rodrigues' formula, every degree, exact arithmetic in characteristic 0."
  },
  {
   "property": "C35",
   "status": "proved",
   "theorems": [
    "Gslib.Props.gauss_nodes_symmetric",
    "Gslib.Props.lobatto_nodes_symmetric",
    "Gslib.Props.gauss_quad_symmetric",
    "Gslib.Props.lobatto_quad_symmetric",
    "Gslib.Props.gauss_nodes_example",
    "Gslib.Props.lobatto_quad_one_uninit"
   ],
   "note": "Every n, every starting value and tolerance of the Newton iteration, whenever it returns; weight formulas at every node; the interface accepts n=1 for lobatto_quad, which reads an uninitialised node (proved)."
  },
  {
   "property": "C52",
   "status": "proved",
   "theorems": [
    "Gslib.Props.gll_lag_correct",
    "Gslib.Props.gll_lag_interpolates",
    "Gslib.Props.lobatto_nodes_increasing"
   ],
   "note": "All 23 unrolled functions transcribed from poly_imp.h; for n>24 the nodes found by the Newton iteration are assumed distinct."
  },
  {
   "property": "C53",
   "status": "proved",
   "theorems": [
    "Gslib.Props.gllz_accurate"
   ],
   "note": "Sign changes evaluated by the kernel over the rationals, intermediate value theorem over the reals."
  },
  {
   "property": "C40",
   "status": "proved",
   "theorems": [
    "Gslib.Props.local_hash_table",
    "Gslib.Props.local_hash_table_closed",
    "Gslib.Props.local_hash_upper_face_missed",
    "Gslib.Props.hash_range_degenerate"
   ],
   "note": "exact arithmetic; finding: upper faces on cell boundaries are missed, zero-thickness boxes leave the table"
  },
  {
   "property": "C51",
   "status": "proved",
   "theorems": [
    "Gslib.Props.hash_opt_size_spec",
    "Gslib.Props.set_bit_get_bit",
    "Gslib.Props.get_bit_eq",
    "Gslib.Props.count_bits_eq"
   ],
   "note": "local maximality: the table size is not monotone in the number of cells; the bisection's upper limit ceil(pow(max_size-nel,1/D)) is a parameter"
  },
  {
   "property": "C20",
   "status": "proved",
   "theorems": [
    "Gslib.Props.gs_symmetric",
    "Gslib.Props.gs_computes",
    "Gslib.Props.exIds_input"
   ],
   "note": "all three methods and gs_auto's choice, any number of processes; hypotheses: ids below 2^63 in absolute value, fewer than 2^31 entries, message sizes fit an int; operation a commutative monoid on the values (C19: all integer domains; reals in exact arithmetic); verbose=0, unique=0"
  },
  {
   "property": "C21",
   "status": "proved",
   "theorems": [
    "Gslib.Props.gs_ignores_zero_ids",
    "Gslib.Props.gs_computes"
   ],
   "note": ""
  },
  {
   "property": "C22",
   "status": "proved",
   "theorems": [
    "Gslib.Props.gs_flagged",
    "Gslib.Props.gs_flagged_transpose",
    "Gslib.Props.gs_transpose_changes_flagged"
   ],
   "note": "the exception for transpose=1 is part of the statement; gs_transpose_changes_flagged shows that it occurs"
  },
  {
   "property": "C24",
   "status": "proved",
   "theorems": [
    "Gslib.Props.gs_vec_is_componentwise",
    "Gslib.Props.gs_many_is_componentwise",
    "Gslib.Props.gs_computes"
   ],
   "note": "vn >= 1 (vn = 0 does not terminate in C)"
  },
  {
   "property": "C25",
   "status": "proved",
   "theorems": [
    "Gslib.Props.gs_method_unobservable",
    "Gslib.Props.gs_computes"
   ],
   "note": "gs_auto: the two time comparisons are arbitrary booleans, equal on all processes (they are results of comm_allreduce); the communication of the dry runs is not modelled"
  },
  {
   "property": "C23",
   "status": "proved",
   "theorems": [
    "Gslib.Props.gs_unique_spec"
   ],
   "note": "all schedules, arbitrary previous memory; ids with sizes of messages fitting in an int (GsInput)"
  },
  {
   "property": "C54",
   "status": "proved",
   "theorems": [
    "Gslib.Props.gs_setup_unique",
    "Gslib.Props.gs_setup_unique_flagged_first"
   ],
   "note": "the condition on flagged entries is necessary: counter-theorem gs_setup_unique_flagged_first (finding 15)"
  },
  {
   "property": "C26",
   "status": "proved",
   "theorems": [
    "Gslib.Props.igs_wait_equals_gs",
    "Gslib.Props.igs_wait_equals_gs_pairwise",
    "Gslib.Props.igs_crystal_undefined",
    "Gslib.Props.igs_allreduce_aborts"
   ],
   "note": "one domain T per program; the crystal-router igs is shown to have no defined effect and the all-reduce igs to abort without GSLIB_USE_NBC"
  },
  {
   "property": "C27",
   "status": "proved",
   "theorems": [
    "Gslib.Props.nonblocking_handles",
    "Gslib.Props.nonblocking_wait_unchecked"
   ],
   "note": "table of igs handles; waiting twice on a handle is not rejected by the code (nonblocking_wait_unchecked)"
  },
  {
   "property": "C28",
   "status": "proved",
   "theorems": [
    "Gslib.Props.fortran_handles",
    "Gslib.Props.fortran_handles_distinct",
    "Gslib.Props.fortran_gs_arguments"
   ],
   "note": ""
  },
  {
   "property": "C29",
   "status": "partial",
   "theorems": [
    "Gslib.Props.fields_addresses_partial",
    "Gslib.Props.fields_addresses_slong_wrong",
    "Gslib.Props.fields_negative_stride"
   ],
   "note": "proved for dom 1 and 2 and for dom 3 when sizeof(slong) is that of the entry used by the code; the full claim is false for dom 3: counter-theorem fields_addresses_slong_wrong (finding 3)"
  },
  {
   "property": "C37",
   "status": "proved",
   "theorems": [
    "Gslib.Props.lob_bnd_lin_1_bounds",
    "Gslib.Props.lob_bnd_1_contains",
    "Gslib.Props.lob_bnd_lin_2_bounds",
    "Gslib.Props.lob_bnd_2_contains",
    "Gslib.Props.lob_bnd_lin_3_bounds",
    "Gslib.Props.lob_bnd_3_contains",
    "Gslib.Props.lob_bnd_setup_table",
    "Gslib.Props.lob_bnd_setup_table_large",
    "Gslib.Props.lob_bnd_setup_valid_2",
    "Gslib.Props.lob_bnd_setup_valid_3",
    "Gslib.Props.cheb_spacing",
    "Gslib.Props.lob_bnd_quadratic",
    "Gslib.Props.lob_bnd_quadratic_23",
    "Gslib.Props.lob_bnd_wrong_for_m_3",
    "Gslib.Props.lob_bnd_wrong_for_m_2",
    "Gslib.Props.lob_bnd_wrong_for_m_5",
    "Gslib.Props.lob_bnd_lin_3_overrun",
    "Gslib.Props.lob_bnd_setup_valid",
    "Gslib.Props.lob_bnd_1_polynomial",
    "Gslib.Props.lob_bnd_2_polynomial",
    "Gslib.Props.lob_bnd_3_polynomial"
   ],
   "note": "as stated; the table of lob_bnd_setup is proved valid for 2<=n<=24 and every m>=4n (also n=2, m>=2 and n=3, m>=4), and shown wrong for n=3, m<=3 and n=4, m=5"
  },
  {
   "property": "C39",
   "status": "proved",
   "theorems": [
    "Gslib.Props.obbox_test_2_iff",
    "Gslib.Props.obbox_test_3_iff",
    "Gslib.Props.obbox_calc_2_covers",
    "Gslib.Props.obbox_calc_3_covers",
    "Gslib.Props.obbox_calc_2_covers_low",
    "Gslib.Props.obbox_calc_3_covers_low",
    "Gslib.Props.obbox_calc_2_covers_poly",
    "Gslib.Props.obbox_calc_3_covers_poly",
    "Gslib.Props.obbox_calc_2_misses_interior"
   ],
   "note": "exact arithmetic; elements with nonzero Jacobian inside (folded elements are missed: obbox_calc_2_misses_interior); unconditional for 2 to 24 nodes and m>=4n, otherwise given valid tables of bounds as in C37"
  },
  {
   "property": "C46",
   "status": "proved",
   "theorems": [
    "Gslib.Props.findpts_el_2_each_point",
    "Gslib.Props.findpts_el_3_each_point",
    "Gslib.Props.seed_nearest",
    "Gslib.Props.findpts_el_2_search",
    "Gslib.Props.findpts_el_3_search"
   ],
   "note": "driver loops of findpts_el_2/3 (grouping, counting sort by constraint pattern, write-back) over any type of numbers, for any group functions that act point by point; the group functions are modelled too and proved to act so (findpts_el_2_search, findpts_el_3_search)"
  },
  {
   "property": "C44",
   "status": "proved",
   "theorems": [
    "Gslib.Props.findpts_el_2_search",
    "Gslib.Props.findpts_el_3_search",
    "Gslib.Props.newton_area_in_element",
    "Gslib.Props.newton_area_exact",
    "Gslib.Props.newton_edge_in_element",
    "Gslib.Props.findpts_el_2_state",
    "Gslib.Props.findpts_el_2_iterates",
    "Gslib.Props.newton_area_boundary_not_exact",
    "Gslib.Props.newton_vol_in_element",
    "Gslib.Props.newton_face_in_element",
    "Gslib.Props.newton_edge_in_element_3",
    "Gslib.Props.findpts_el_3_state",
    "Gslib.Props.findpts_el_3_iterates",
    "Gslib.Props.newton_vol_not_exact"
   ],
   "note": "every step of newton_area / newton_edge (2D) and newton_vol / newton_face / newton_edge (3D), and every iterate of the search, for any element map with invertible Jacobian, stays in [-1,1]^d and in the trust region with held coordinates exactly at +-1; the goto loop of newton_area passes newton_area_edge at most twice, that of newton_vol ends after at most 21 passes. findpts_el_2_search, findpts_el_3_search: the same for the whole function from the arrays of nodes on (interpolation kernels, face, edge and corner data, work arrays). Exact arithmetic."
  },
  {
   "property": "C45",
   "status": "proved",
   "theorems": [
    "Gslib.Props.findpts_el_2_trust",
    "Gslib.Props.findpts_el_2_iterates",
    "Gslib.Props.findpts_el_2_search",
    "Gslib.Props.findpts_el_3_search",
    "Gslib.Props.findpts_el_3_trust",
    "Gslib.Props.findpts_el_3_iterates"
   ],
   "note": "2D and 3D: accept / reject of reject_prior_step_q with restoring and shrinking, dist2 monotone over the whole search, at most the squared distance to any node at the end, for the whole functions findpts_el_2 and findpts_el_3 with their kernels and work arrays. Exact arithmetic."
  },
  {
   "property": "C41",
   "status": "proved",
   "theorems": [
    "Gslib.Props.global_hash_table",
    "Gslib.Props.global_cell_injective"
   ],
   "note": "exact arithmetic; on every schedule; proper boxes, upper faces excluded as in C40; cell numbers below 2^32 per process"
  },
  {
   "property": "C42",
   "status": "proved",
   "theorems": [
    "Gslib.Props.findpts_best",
    "Gslib.Props.findpts_route_truncated"
   ],
   "note": "findpts with one session, on every schedule of hash_build and of the search; the element search is any function acting point by point (C46), the oriented box test any Boolean function (C39)"
  },
  {
   "property": "C43",
   "status": "proved",
   "theorems": [
    "Gslib.Props.findpts_best"
   ],
   "note": "result at index i of process p is that of the candidates of this point; points found inside a local element keep the local result; the same for findpts_eval is C49"
  },
  {
   "property": "C49",
   "status": "proved",
   "theorems": [
    "Gslib.Props.findpts_eval_history",
    "Gslib.Props.saved_same",
    "Gslib.Props.findpts_eval_stale",
    "Gslib.Props.findpts_el_eval_2_interpolates",
    "Gslib.Props.findpts_el_eval_3_interpolates",
    "Gslib.Props.gll_dir_of_nodes",
    "Gslib.Props.gll_dir"
   ],
   "note": "on every schedule and in every history of findpts / findpts_eval calls; values are those of the owner's element evaluation at r, for the points of the saved pattern (finding: stale pattern is not noticed). findpts_el_eval_2/3 give the tensor Lagrange interpolant."
  },
  {
   "property": "C38",
   "status": "proved",
   "theorems": [
    "Gslib.Props.findpts_el_setup_2_layout",
    "Gslib.Props.findpts_el_setup_2_ok",
    "Gslib.Props.findpts_el_2_search",
    "Gslib.Props.findpts_el_setup_3_layout",
    "Gslib.Props.findpts_el_setup_3_ok",
    "Gslib.Props.findpts_el_3_search",
    "Gslib.Props.findpts_el_eval_3_interpolates",
    "Gslib.Props.findpts_el_eval_2_interpolates",
    "Gslib.Props.gll_dir",
    "Gslib.Props.gll_lag_correct",
    "Gslib.Props.lob_bnd_setup_table_large",
    "Gslib.Props.obbox_calc_2_covers",
    "Gslib.Props.obbox_calc_3_covers"
   ],
   "note": "each theorem runs the code on arrays of exactly the allocated sizes with out-of-bounds access an error."
  },
  {
   "property": "C55",
   "status": "proved",
   "theorems": [
    "Gslib.Props.findptsms_best",
    "Gslib.Props.findptsms_border_beats_internal"
   ],
   "note": "findptsms with several sessions, on every schedule of hash_build and of the search; element search and box test abstract as in C42 (finding 29: only disti is compared between sessions)"
  },
  {
   "property": "C56",
   "status": "proved",
   "theorems": [
    "Gslib.Props.findpts_el_2_converged",
    "Gslib.Props.findpts_el_2_search_converged",
    "Gslib.Props.findpts_el_3_converged",
    "Gslib.Props.findpts_el_3_search_converged",
    "Gslib.Props.converged_not_nearest",
    "Gslib.Props.converged_not_nearest_3"
   ],
   "note": "exact arithmetic; step and whole search, 2D and 3D, with the stated exception, whose reality is converged_not_nearest (finding 30)"
  },
  {
   "property": "C57",
   "status": "proved",
   "theorems": [
    "Gslib.Props.gauss_quad_exact",
    "Gslib.Props.lobatto_quad_exact",
    "Gslib.Props.lobatto_quad_tabulated",
    "Gslib.Props.exactUpTo_integral",
    "Gslib.Props.lobatto_quad_simpson",
    "Gslib.Props.gauss_quad_two"
   ],
   "note": "exact arithmetic; zeros of P_n as a hypothesis for gauss_quad and for lobatto_quad with n>24 (C58 says how close the computed ones are), none for the tabulated orders; exactUpTo_integral relates the specification to the integral over the reals"
  },
  {
   "property": "C58",
   "status": "proved",
   "theorems": [
    "Gslib.Props.gauss_nodes_accurate",
    "Gslib.Props.lobatto_nodes_accurate",
    "Gslib.Props.gauss_nodes_complete",
    "Gslib.Props.gauss_nodes_accurate_example"
   ],
   "note": "exact arithmetic over the reals, starting values arbitrary; that the iteration terminates is not claimed"
  },
  {
   "property": "C59",
   "status": "proved",
   "theorems": [
    "Gslib.Props.findpts_finds_2",
    "Gslib.Props.findpts_finds_3",
    "Gslib.Props.findptsms_finds_2",
    "Gslib.Props.findptsms_finds_3"
   ],
   "note": "exact arithmetic; on every schedule; element search any function acting point by point; messages below INT_MAX bytes, cell numbers below 2^32 as in C42"
  },
  {
   "property": "C60",
   "status": "proved",
   "theorems": [
    "Gslib.Props.findpts_local_strided",
    "Gslib.Props.findpts_local_best",
    "Gslib.Props.findpts_strided",
    "Gslib.Props.findptsms_strided",
    "Gslib.Props.findpts_stride_wraps",
    "Gslib.Props.findpts_eval_strided",
    "Gslib.Props.findpts_interpolate"
   ],
   "note": "on every schedule; first findpts_eval after findpts; session arrays of findpts as allocated by the library; finding 31: offsets of 4 GB wrap"
  },
  {
   "property": "C61",
   "status": "proved",
   "theorems": [
    "Gslib.Props.gs_any_operation",
    "Gslib.Props.gs_vec_any_operation",
    "Gslib.Props.gs_many_any_operation",
    "Gslib.Props.combines_unique",
    "Gslib.Props.gs_sum_rounding_error",
    "Gslib.Props.gs_product_rounding_error",
    "Gslib.Props.gs_copies_can_differ",
    "Gslib.Props.gs_pairwise_reproducible",
    "Gslib.Props.igs_wait_equals_gs_bits"
   ],
   "note": "every operation, no associativity; rounding error for the standard model of rounding without overflow; finding 33: copies can differ; bit-for-bit statements (independence of buffers, igs) for the pairwise method"
  },
  {
   "property": "C62",
   "status": "proved",
   "theorems": [
    "Gslib.Props.sarray_sort_in_memory",
    "Gslib.Props.sortp_in_memory",
    "Gslib.Props.sortp_real_in_memory",
    "Gslib.Props.sortv_in_memory",
    "Gslib.Props.sortp_four_gigabytes",
    "Gslib.Props.sortp_buffer",
    "Gslib.Props.sortp_buffer_wraps",
    "Gslib.Props.permute_buffer"
   ],
   "note": "array below 4 GB, fewer than 2^31 structs; findings 34, 35: the 32-bit products wrap; work space as typed arrays, its place in the buffer by sortp_buffer"
  },
  {
   "property": "C63",
   "status": "proved",
   "theorems": [
    "Gslib.Props.findpts_after_setup",
    "Gslib.Props.findpts_setup_finds_2",
    "Gslib.Props.findpts_setup_finds_3",
    "Gslib.Props.findptsms_setup_finds_2",
    "Gslib.Props.findptsms_setup_finds_3",
    "Gslib.Props.setup_bound",
    "Gslib.Props.hash_n_least"
   ],
   "note": "exact arithmetic; on every schedule; comm_allreduce as the tree of comm.c; table sizes below 2^32, messages below INT_MAX as in C42; local_hash_size different from nel (finding 19), sum of global_hash_size positive (finding 36); element search any function acting point by point"
  },
  {
   "property": "C64",
   "status": "proved",
   "theorems": [
    "Gslib.Props.gs_setup_auto",
    "Gslib.Props.gs_auto_then_gs"
   ],
   "note": "times are elements of an ordered field (no NaN); the choice is made from the maxima; MPI_Barrier omitted; exchange data as parameters of the program checked against memory"
  },
  {
   "property": "C65",
   "status": "proved",
   "theorems": [
    "Gslib.Props.gs_transpose",
    "Gslib.Props.gs_idempotent",
    "Gslib.Props.gs_multiplicity"
   ],
   "note": "sums in a commutative semiring (exact, or integers modulo 2^w); multiplicity in a field of characteristic 0, nonnegative ids"
  },
  {
   "property": "C66",
   "status": "proved",
   "theorems": [
    "Gslib.Props.comm_allreduce_same_bits",
    "Gslib.Props.comm_scan_same_bits",
    "Gslib.Props.comm_allreduce_rounding_error"
   ],
   "note": "the hand-written tree of comm.c (MPI_Allreduce is trusted); rounding: standard model without overflow"
  },
  {
   "property": "C67",
   "status": "proved",
   "theorems": [
    "Gslib.Props.gs_reproducible",
    "Gslib.Props.gs_copies_on_process",
    "Gslib.Props.gs_copies_allreduce",
    "Gslib.Props.fromSetup_allreduce"
   ],
   "note": "any operation, no associativity; the hand-written tree of comm.c for the all-reduce (MPI_Allreduce is trusted)"
  },
  {
   "property": "C68",
   "status": "proved",
   "theorems": [
    "Gslib.Props.comm_dot_same_bits",
    "Gslib.Props.comm_dot_exact",
    "Gslib.Props.comm_dot_rounding_error",
    "Gslib.Props.comm_reduce_same_bits"
   ],
   "note": "the hand-written tree of comm.c (MPI_Allreduce, used for sums by default with MPI, is trusted); tensor_dot is the loop of tensor.c, not CBLAS"
  },
  {
   "property": "C69",
   "status": "proved",
   "theorems": [
    "Gslib.Props.local_hash_table_machine",
    "Gslib.Props.hash_table_overflow",
    "Gslib.Props.hash_size_wraps",
    "Gslib.Props.hash_limit_eq_nel_undefined"
   ],
   "note": "coordinates are exact numbers; nu (a floating point power in the code) is an argument"
  },
  {
   "property": "C70",
   "status": "proved",
   "theorems": [
    "Gslib.Props.local_hash_table_rounded",
    "Gslib.Props.global_cell_rounded"
   ],
   "note": "standard model without overflow or underflow; integers (hash_n) convert to double exactly; integer wrap-around is C69"
  },
  {
   "property": "C71",
   "status": "proved",
   "theorems": [
    "Gslib.Props.interpolation_rounding_error_2",
    "Gslib.Props.interpolation_rounding_error_3"
   ],
   "note": "standard model without overflow or underflow; the naive loops of tensor.c (default build), not BLAS; the weights are arguments (their own error is not part of this claim)"
  },
  {
   "property": "C72",
   "status": "proved",
   "theorems": [
    "Gslib.Props.lagrange_weights_rounded",
    "Gslib.Props.findpts_el_eval_rounded_2",
    "Gslib.Props.findpts_el_eval_rounded_3"
   ],
   "note": "standard model without overflow or underflow; exact doubling; nodes are the stored ones; the generated gll_lag_NN do the operations of lagrange_eval; naive tensor loops"
  },
  {
   "property": "C73",
   "status": "proved",
   "theorems": [
    "Gslib.Props.obbox_test_rounded_2",
    "Gslib.Props.obbox_test_rounded_3",
    "Gslib.Props.obbox_test_tolerance_2",
    "Gslib.Props.obbox_test_tolerance_3",
    "Gslib.Props.obbox_calc_test_rounded_2",
    "Gslib.Props.obbox_calc_test_rounded_3"
   ],
   "note": "standard model without overflow or underflow; the box is the stored one; in obbox_calc_test_rounded_* it is computed in exact arithmetic"
  },
  {
   "property": "C74",
   "status": "proved",
   "theorems": [
    "Gslib.Props.gradient_rounding_error_1",
    "Gslib.Props.gradient_rounding_error_2",
    "Gslib.Props.gradient_rounding_error_3"
   ],
   "note": "standard model without overflow or underflow; the naive loops of tensor.c (default build), not BLAS; the weights are arguments"
  },
  {
   "property": "C75",
   "status": "proved",
   "theorems": [
    "Gslib.Props.lagrange_derivatives_rounded",
    "Gslib.Props.lagrange_second_derivatives_rounded"
   ],
   "note": "standard model without overflow or underflow; exact doubling; nodes are the stored ones; lagrange_eval (not the generated gll_lag_NN); the first product of the sums in p1 and p2 is not contracted"
  },
  {
   "property": "C76",
   "status": "proved",
   "theorems": [
    "Gslib.Props.legendre_rounded",
    "Gslib.Props.legendre_d1_rounded",
    "Gslib.Props.legendre_d2_rounded"
   ],
   "note": "standard model without overflow or underflow; integers up to 2n+3 are exact"
  }
 ]
}