{
 "claims": [
  {
   "property": "C01",
   "status": "proved",
   "theorems": [
    "Verif.C01_insert_at",
    "Verif.C01_reachable_wf"
   ],
   "note": ""
  },
  {
   "property": "C02",
   "status": "proved",
   "theorems": [
    "Verif.C02_sort_permutes"
   ],
   "note": ""
  },
  {
   "property": "C03",
   "status": "proved",
   "theorems": [
    "Verif.C03_sort_merge"
   ],
   "note": ""
  },
  {
   "property": "C04",
   "status": "partial",
   "theorems": [
    "Verif.C04_merge_value_violated",
    "Verif.C04_merge_value_partial"
   ],
   "note": "Code violates the property: negation proved with a witness; partial theorem says the kept value is one of the stored ones."
  },
  {
   "property": "C05",
   "status": "partial",
   "theorems": [
    "Verif.C05_sort_empty_violated",
    "Verif.C05_sort_empty_partial"
   ],
   "note": "sort(true) on an empty matrix violates the property (proved for all sizes); sort(false) proved."
  },
  {
   "property": "C06",
   "status": "partial",
   "theorems": [
    "Verif.C06_convert_rows",
    "Verif.C06_convert_any_target_partial",
    "Verif.C06_row_ptr_end_violated",
    "Verif.C06_reuse_violated"
   ],
   "note": "Row contents, bounds and round trip proved in full for fresh targets; monotone row pointer and independence of a re-used target are violated by the code (negations proved) and proved when first and last row are non-empty."
  },
  {
   "property": "C07",
   "status": "proved",
   "theorems": [
    "Verif.C07_crs_to_coo",
    "Verif.C07_round_trip"
   ],
   "note": ""
  },
  {
   "property": "C08",
   "status": "proved",
   "theorems": [
    "Verif.C08_coo_to_dense",
    "Verif.C08_dense_to_coo",
    "Verif.C08_round_trip",
    "Verif.C08_offset_target_violated"
   ],
   "note": "Full for targets owning their storage; for alias targets at an offset the code violates it (negation proved)."
  },
  {
   "property": "C09",
   "status": "partial",
   "theorems": [
    "Verif.C09_copy",
    "Verif.C09_copy_with_value_violated",
    "Verif.C09_convert_violated",
    "Verif.C09_copy_with_value_partial",
    "Verif.C09_convert_partial"
   ],
   "note": "Copy constructor proved; CRS(A,value) and convert(CRS) write out of bounds for padded sources (negations proved), right for unpadded ones."
  },
  {
   "property": "C10",
   "status": "proved",
   "theorems": [
    "Verif.C10_transpose",
    "Verif.C10_transpose_twice",
    "Verif.C10_transpose_from"
   ],
   "note": ""
  },
  {
   "property": "C100",
   "status": "partial",
   "theorems": [
    "Verif.Round.C100_sum",
    "Verif.Round.C100_nrm1",
    "Verif.Round.C100_dot",
    "Verif.Round.C100_nrm2",
    "Verif.Round.C100_schedules",
    "Verif.Round.C100_matvec",
    "Verif.Round.C100_matvec_T",
    "Verif.Round.C100_integer_sum",
    "Verif.Round.C100_integer_dot",
    "Verif.Round.C100_ieee",
    "Verif.Round.C100_reproducible_violated"
   ],
   "note": "the bounds are proved in full for the standard model, and every binary format is proved to meet it (C100_ieee, Spec/Ieee.lean); bitwise reproducibility fails (negation proved for every format): the result depends on the schedule, by at most C100_schedules. Contraction to fused multiply-add and reordering by -ffast-math are not modelled; dot/asum of the external BLAS are taken as sums in some order"
  },
  {
   "property": "C101",
   "status": "partial",
   "theorems": [
    "Verif.Viewer.C101_layer1",
    "Verif.Viewer.C101_solver",
    "Verif.Viewer.C101_shares",
    "Verif.Viewer.C101_empty_violated",
    "Verif.Viewer.C101_lost_violated"
   ],
   "note": "full for executions in which every call returns normally and at least one call is logged. Otherwise the code violates the claim (negations proved): the viewer fails on an empty log, and after a comparison of unequal vectors at level 3 (the call is never closed, C35) all later calls are silently not shown, or the viewer fails if there were none before. Digits of the printed times and the HTML are not modelled"
  },
  {
   "property": "C102",
   "status": "proved",
   "theorems": [
    "Verif.Solver.C102_optimal",
    "Verif.Solver.C102_terminates",
    "Verif.Solver.C102_rate_simple",
    "Verif.Solver.C102_rate",
    "Verif.Solver.C102_solve",
    "Verif.Solver.C102_crs",
    "Verif.Solver.C102_sor",
    "Verif.Solver.C102_sgs",
    "Verif.Solver.C102_ssor",
    "Verif.Solver.C102_jacobi",
    "Verif.Solver.C102_dominant",
    "Verif.Solver.C102_sgs_dominant",
    "Verif.Solver.C102_toeplitz"
   ],
   "note": "exact real arithmetic (C102_optimal, C102_terminates, C102_rate_simple: every ordered field)"
  },
  {
   "property": "C103",
   "status": "proved",
   "theorems": [
    "Verif.Gap.C103_gap",
    "Verif.Gap.C103_cg",
    "Verif.Gap.C103_bicgstab",
    "Verif.Gap.C103_success",
    "Verif.Gap.C103_bicgstab_success",
    "Verif.Gap.C103_formats",
    "Verif.Gap.C103_tolerance_violated"
   ],
   "note": "finite results; the last theorem is the witness that the bound cannot be replaced by the tolerance"
  },
  {
   "property": "C104",
   "status": "partial",
   "theorems": [
    "Verif.Lobpcg.C104_eigenvalues",
    "Verif.Lobpcg.C104_no_precond",
    "Verif.Lobpcg.C104_jacobi",
    "Verif.Lobpcg.C104_sor",
    "Verif.Prog.C104_smallest_violated",
    "Verif.Prog.C104_example_repaired",
    "Verif.Prog.C104_example_violated",
    "Verif.Prog.C104_example_partial"
   ],
   "note": "the claim about the solver is proved in full (arithmetic without rounding except for the square root). The example program violates it (negation proved): it passes the end instead of the size to view1D and reads past the array for two or more eigenpairs; proved for one eigenpair, and for the program with the right size for any number"
  },
  {
   "property": "C105",
   "status": "proved",
   "theorems": [
    "Verif.Solver.C105_cg_same",
    "Verif.Solver.C105_bicg_same",
    "Verif.Solver.C105_jacobi_same",
    "Verif.Solver.C105_operator",
    "Verif.Solver.C105_dense",
    "Verif.Solver.C105_cg",
    "Verif.Solver.C105_sum",
    "Verif.Solver.C105_dangling_violated",
    "Verif.Lobpcg.C105_lobpcg_same",
    "Verif.Lobpcg.C105_lobpcg_generalized_same",
    "Verif.Lobpcg.C105_lobpcg_dense",
    "Verif.Lobpcg.C105_lobpcg_operator"
   ],
   "note": "the first three theorems: any arithmetic, any two matrix arguments with the same products and diagonal; the products of the formats are shown equal in exact arithmetic. The last theorem proves the undefined behaviour the statement warns of"
  },
  {
   "property": "C106",
   "status": "partial",
   "theorems": [
    "Verif.LogRace.C106_race_iff",
    "Verif.LogRace.C106_safe",
    "Verif.LogRace.C106_lost_violated",
    "Verif.LogRace.C106_diag_race_iff",
    "Verif.LogRace.C106_diag_safe",
    "Verif.LogRace.C106_diag_violated"
   ],
   "note": "violated by the code (negation proved): the logger is one unprotected object and LinearOperator::diag calls it from all its threads at log level 2 or 3; the exact condition for a race is proved, safety under every schedule if there is no race (in particular at levels 0 and 1, or with one thread), and a schedule that ends in undefined behaviour whenever there is one"
  },
  {
   "property": "C107",
   "status": "partial",
   "theorems": [
    "Verif.Solver.Dev.C107_cg",
    "Verif.Solver.Dev.C107_bicg",
    "Verif.Solver.Dev.C107_jacobi_partial",
    "Verif.Solver.Dev.C107_sor_partial",
    "Verif.Solver.Dev.C107_portable",
    "Verif.Solver.Dev.C107_jacobi_violated",
    "Verif.Solver.Dev.C107_sor_violated",
    "Verif.Solver.Dev.C107_mixed_violated",
    "Verif.Solver.Dev.C107_pc_violated",
    "Verif.Solver.Dev.C107_stale_violated"
   ],
   "note": "violated by the code (negations proved): the Jacobi and SOR solvers and the SOR preconditioner abort on host data in a GPU build, SOR uses the host copy of the matrix even if it is stale, and mixed sides are rejected only if both vectors differ from the matrix. Proved for everything else: data all on the device, CPU builds, and host data with CG and BiCGSTAB; arithmetic of host and device assumed equal"
  },
  {
   "property": "C108",
   "status": "proved",
   "theorems": [
    "Verif.MpiSolver.C108_cg",
    "Verif.MpiSolver.C108_bicg",
    "Verif.MpiSolver.C108_jacobi",
    "Verif.MpiSolver.C108_sor",
    "Verif.MpiSolver.C108_together",
    "Verif.MpiSolver.C108_together_sor",
    "Verif.MpiSolver.C108_crs",
    "Verif.MpiSolver.C108_cg_spd",
    "Verif.MpiSolver.C108_square_violated",
    "Verif.MpiSolver.C108_maxiter_violated"
   ],
   "note": "assumes that MPI_Allreduce gives all processes the same value and tolerates equal send and receive buffers (see C63). C108_cg etc.: any arithmetic; C108_together: the whole system exists for any usable matrices, so no deadlock; C108_crs: instance for CRS matrices with no or the Jacobi preconditioner; C108_cg_spd: exact arithmetic. The two _violated theorems prove the deadlocks the last sentence warns of (a throw on one process, or different limits)"
  },
  {
   "property": "C109",
   "status": "partial",
   "theorems": [
    "Verif.Construct.C109_vec_fill",
    "Verif.Construct.C109_vec_random",
    "Verif.Construct.C109_random_vector",
    "Verif.Construct.C109_vec_list",
    "Verif.Construct.C109_vec_view",
    "Verif.Construct.C109_copy_partial",
    "Verif.Construct.C109_copy_violated",
    "Verif.Construct.C109_dense_ptr",
    "Verif.Construct.C109_dense_list_partial",
    "Verif.Construct.C109_dense_list_violated",
    "Verif.Construct.C109_dense_vec_partial",
    "Verif.Construct.C109_dense_vec_violated",
    "Verif.Construct.C109_dense_random",
    "Verif.Construct.C109_dense_fill",
    "Verif.Construct.C109_dense_like",
    "Verif.Construct.C109_dense_view",
    "Verif.Construct.C109_tens_ptr",
    "Verif.Construct.C109_tens_list_partial",
    "Verif.Construct.C109_tens_list_violated",
    "Verif.Construct.C109_tens_random",
    "Verif.Construct.C109_tens_copy",
    "Verif.Construct.C109_tens_like",
    "Verif.Construct.C109_tens_view",
    "Verif.Construct.C109_convert_partial",
    "Verif.Construct.C109_convert_dense_partial",
    "Verif.Construct.C109_convert_vec_partial",
    "Verif.Construct.C109_convert_violated"
   ],
   "note": "violated by the code (negations proved): the copy constructor of vector and tensor_Dense::convert copy from the beginning of the buffer, not from the source's first element; Dense(M, N, list) and tensor_Dense(shape, list) write past the end for longer lists; Dense(M, N, vector) reads past the end of a shorter vector. Proved for everything else. new is assumed to succeed; the random generator is an arbitrary stream"
  },
  {
   "property": "C11",
   "status": "proved",
   "theorems": [
    "Verif.C11_transpose",
    "Verif.C11_transpose_twice",
    "Verif.C11_transpose_from",
    "Verif.C11_offset_violated"
   ],
   "note": "For storage offset 0, as the property says; negation for other offsets."
  },
  {
   "property": "C110",
   "status": "partial",
   "theorems": [
    "Verif.Stat.C110_jacobi_partial",
    "Verif.Stat.C110_sor_partial",
    "Verif.Stat.C110_formats",
    "Verif.Stat.C110_double_partial",
    "Verif.Stat.C110_sor_double_partial",
    "Verif.Stat.C110_returned_violated",
    "Verif.Stat.C110_overflow_violated"
   ],
   "note": "violated by the code (negations proved): the test is made on the residual of the previous iterate, and the returned vector, one sweep later, can have a far larger residual (C110_returned_violated, exact arithmetic); when the norm of b overflows, 1/nrm2(b) is 0 and every finite residual passes (C110_overflow_violated, IEEE double). Proved: the bound holds for the vector the solver would have returned with one iteration less, and for Jacobi the residual of the returned vector exceeds it by at most norm(A) times the reported residual"
  },
  {
   "property": "C111",
   "status": "partial",
   "theorems": [
    "Verif.HTCrs.C111_structure_partial",
    "Verif.HTCrs.C111_assign_partial",
    "Verif.HTCrs.C111_times_partial",
    "Verif.HTCrs.C111_assign_sizes",
    "Verif.HTCrs.C111_set_ptr",
    "Verif.HTCrs.C111_set_ptr_fill",
    "Verif.HTCrs.C111_like_violated",
    "Verif.HTCrs.C111_arrays_violated",
    "Verif.HTCrs.C111_assign_violated"
   ],
   "note": "violated by the code (negations proved): tensor_CRS(shape, row_ptrs, col_inds, value) and tensor_CRS(crs, value) never set structure_hash, so such tensors are rejected unless the memory happens to hold the right number; the hash only depends on the lengths of the arrays, so an assignment between different structures is accepted. Proved for all tensors made by set_ptr, conversion or copy, with any history of values; assumes the same schedule for the same trip count (see C14)"
  },
  {
   "property": "C112",
   "status": "partial",
   "theorems": [
    "Verif.Mm.C112_any_layout_partial",
    "Verif.Mm.C112_example",
    "Verif.Mm.C112_short_repeated",
    "Verif.Mm.C112_short_uninitialised",
    "Verif.Mm.C112_row_out_of_range_violated",
    "Verif.Mm.C112_row_zero_violated",
    "Verif.Mm.C112_blank_line_violated",
    "Verif.Mm.C112_letter_case_violated",
    "Verif.Mm.C112_late_comment_violated"
   ],
   "note": "violated by the code (proved): a file with too few entries is accepted with its last entry repeated (no final line break) or read from uninitialised variables (final line break), for every such file; indices 0 or out of range are accepted and the conversion to CRS then writes outside its arrays; blank lines and comments after the sizes, and upper case in the first line, are not handled. Proved: every file without blank lines is read as what it says, in any layout, and the example program solves it."
  },
  {
   "property": "C113",
   "status": "partial",
   "theorems": [
    "Verif.Incomplete.C113_ilu_solve_partial",
    "Verif.Incomplete.C113_ic_solve_partial",
    "Verif.Incomplete.C113_ilu_precond_partial",
    "Verif.Incomplete.C113_ic_precond_partial",
    "Verif.Incomplete.C113_cg_ic_partial",
    "Verif.Incomplete.C113_ilu_definite_partial",
    "Verif.Incomplete.C113_ic_definite_partial",
    "Verif.Incomplete.C113_cpu_refused",
    "Verif.Incomplete.C113_stale_violated",
    "Verif.Incomplete.C113_zero_pivot_violated",
    "Verif.Incomplete.C113_side_violated"
   ],
   "note": "violated by the code (proved): the values factorised are those on the host, so changes on the device are ignored; in double precision a zero pivot is only printed and SUCCESS is returned with a vector that is not a solution; the device check joins its two conditions with && so a vector on the host reaches cuSPARSE. Proved for matrices whose host copy is up to date and operands on the device, with cuSPARSE a parameter that satisfies its documentation in exact arithmetic."
  },
  {
   "property": "C114",
   "status": "partial",
   "theorems": [
    "Verif.Gen.C114_random_tensor_partial",
    "Verif.Gen.C114_reject",
    "Verif.Gen.C114_zero_value_violated",
    "Verif.Gen.C114_empty_violated"
   ],
   "note": "violated by the code (proved): with value 0 repeated positions are not detected, and with nnzrow = 0 or an extent 0 the tensor claims one element and stores none. Proved for all other arguments with at most 2^31 positions (beyond, sort truncates its keys: C37)."
  },
  {
   "property": "C115",
   "status": "proved",
   "theorems": [
    "Verif.Lapack.C115_spectrum",
    "Verif.Lapack.C115_definite"
   ],
   "note": "LAPACK is a parameter with its documented contract (SygvdOk, SygvdNormal); C115_definite shows that the contract can be met with success for every positive definite B."
  },
  {
   "property": "C116",
   "status": "partial",
   "theorems": [
    "Verif.Direct.C116_lu_inplace_partial",
    "Verif.Direct.C116_lu_solve_partial",
    "Verif.Direct.C116_lu_same_partial",
    "Verif.Direct.C116_cholesky_inplace_partial",
    "Verif.Direct.C116_cholesky_solve_partial",
    "Verif.Direct.C116_cholesky_refused",
    "Verif.Direct.C116_dc_standard_partial",
    "Verif.Direct.C116_dc_generalized_partial",
    "Verif.Direct.C116_dc_itype",
    "Verif.Direct.C116_qr_partial",
    "Verif.Direct.C116_cholesky_crs_partial",
    "Verif.Direct.C116_sparse_refused",
    "Verif.Direct.C116_lu_matrix_on_device_violated",
    "Verif.Direct.C116_lu_vector_on_device_violated",
    "Verif.Direct.C116_cholesky_twice_violated",
    "Verif.Direct.C116_dc_ignores_device_violated",
    "Verif.Direct.C116_dc_stale_violated",
    "Verif.Direct.C116_dc_second_violated",
    "Verif.Direct.C116_sparse_always_success_violated",
    "Verif.Direct.C116_sparse_singular_violated",
    "Verif.Direct.C116_sparse_host_violated"
   ],
   "note": "violated by the code (proved): LU with the matrix and the vector on different sides reports SUCCESS with a wrong result; Cholesky leaves x on the device, so a second call aborts; DC ignores what is on the device and leaves the second matrix there; sparse QR and Cholesky return SUCCESS for every matrix and hand host addresses to cuSOLVER. Proved for the remaining placements."
  },
  {
   "property": "C117",
   "status": "partial",
   "theorems": [
    "Verif.Lobpcg.Dev.C117_standard_partial",
    "Verif.Lobpcg.Dev.C117_generalized_partial",
    "Verif.Lobpcg.Dev.C117_standard_host_violated",
    "Verif.Lobpcg.Dev.C117_generalized_host_violated",
    "Verif.Lobpcg.Dev.C117_device_vectors_violated",
    "Verif.Lobpcg.Dev.C117_device_values_violated"
   ],
   "note": "violated by the code (proved): in a GPU build with all arguments on the host every calculation that needs a second pass aborts (sygvd leaves the projected matrix on the device); given initial vectors on the device abort; eigenvalues on the device never return; with A on the device x is left on the device. Proved: with A (and B) on the device and l, x on the host, and for builds without GPU, the outcome is that of the host calculation."
  },
  {
   "property": "C118",
   "status": "partial",
   "theorems": [
    "Verif.MpiLobpcg.C118_one_process",
    "Verif.MpiLobpcg.C118_one_process_generalized",
    "Verif.MpiLobpcg.C118_lobpcg_return_partial",
    "Verif.MpiLobpcg.C118_lobpcg_generalized_return_partial",
    "Verif.MpiLobpcg.C118_hang_violated",
    "Verif.MpiLobpcg.C118_eigenvalues_violated"
   ],
   "note": "violated by the code (proved): norms and scalar products are reduced over the processes but the projected matrices are not, so processes return different eigenvalues, with success (C118_eigenvalues_violated), and a problem that one process solves in one iteration hangs for ever on two processes with one row each (C118_hang_violated). Proved: one process is the run without MPI; if LAPACK can solve the projected problem of every process they return together with the same code, count and residual."
  },
  {
   "property": "C119",
   "status": "partial",
   "theorems": [
    "Verif.Lobpcg.C119_lobpcg_standard_partial",
    "Verif.Lobpcg.C119_lobpcg_generalized_partial",
    "Verif.Lobpcg.C119_lobpcg_success_partial",
    "Verif.Lobpcg.C119_more_iterations_partial",
    "Verif.Lobpcg.C119_more_iterations_generalized_partial",
    "Verif.Lobpcg.C119_above_eigenvalues_partial",
    "Verif.Lobpcg.C119_above_eigenvalues_generalized_partial",
    "Verif.Lobpcg.C119_unit_vectors",
    "Verif.Lobpcg.C119_unit_precond",
    "Verif.Lobpcg.C119_no_precond_partial",
    "Verif.Lobpcg.C119_precond_partial",
    "Verif.Lobpcg.C119_jacobi_partial",
    "Verif.Lobpcg.C119_sor_partial",
    "Verif.Lobpcg.C119_not_without_error"
   ],
   "note": "violated by the code (proved): the solver ignores every info of dsygvd that is at least the number of vectors and not in the range it takes for a singular matrix; with a positive definite matrix and orthonormal start vectors it goes on after info = 6 and returns MAXITER with the eigenvalues 0, 0 and twice the same vector (C119_not_without_error). Proved: if no such answer occurs in the run (the run is not changed when those errors are reported), the pairs are Ritz pairs and at least as good as the start vectors, for every return code but RESIDUAL_NAN, and a larger maxiter gives no larger number (C119_more_iterations*). Without a preconditioner, or with one that is a map on finite vectors and hides no NaN (Jacobi: C119_jacobi_partial), the finiteness of the vectors is not a hypothesis but a conclusion: unless RESIDUAL_NAN is returned they are finite, of length 1 and orthogonal (C119_unit_vectors, C119_no_precond_partial)."
  },
  {
   "property": "C12",
   "status": "proved",
   "theorems": [
    "Verif.C12_transpose",
    "Verif.C12_transpose_from"
   ],
   "note": ""
  },
  {
   "property": "C120",
   "status": "partial",
   "theorems": [
    "Verif.Lobpcg.C120_converges_partial",
    "Verif.Lobpcg.C120_converges_random_partial",
    "Verif.Lobpcg.C120_converges_always_partial",
    "Verif.Lobpcg.C120_crs_partial",
    "Verif.Lobpcg.C120_block_partial",
    "Verif.Lobpcg.C120_converges_precond_partial",
    "Verif.Lobpcg.C120_converges_jacobi_partial",
    "Verif.Lobpcg.C120_precond_partial",
    "Verif.Lobpcg.C120_jacobi_partial",
    "Verif.Lobpcg.C120_sor_partial",
    "Verif.Lobpcg.C120_sor_block_partial",
    "Verif.Lobpcg.C120_eigenvector_violated"
   ],
   "note": "proved for one vector in exact arithmetic, without a preconditioner, with Jacobi, with SOR (CRS, positive diagonal), or with any preconditioner T with c |Tv|^2 <= v.Tv, with the explicit iteration bound and for every LAPACK that meets its documentation (one such library over the reals is constructed, Lemmas/DsygvdExists). Violated by the code (proved): if one of the start vectors is an eigenvector of length 1, the residual 0 is divided by its norm 0 and the solver never succeeds, whatever LAPACK does and for any number of vectors. For several vectors the statement is also false of the code because of the ignored errors of LAPACK (C119_not_without_error: MAXITER with l = (0,0)); proved for several vectors, any start: with (maxiter - 1) tol^2 > 2 m D^2 a run that returns, and in which no error of LAPACK is ignored, returns SUCCESS or RESIDUAL_NAN, never MAXITER (C120_block_partial); that it returns SUCCESS is proved only for one vector."
  },
  {
   "property": "C121",
   "status": "partial",
   "theorems": [
    "Verif.DataSize.C121_dense",
    "Verif.DataSize.C121_tensor_dense",
    "Verif.DataSize.C121_crs",
    "Verif.DataSize.C121_coo_partial",
    "Verif.DataSize.C121_coo_double_violated",
    "Verif.DataSize.C121_tensor_coo_partial",
    "Verif.DataSize.C121_tensor_coo_violated",
    "Verif.DataSize.C121_tensor_crs_partial",
    "Verif.DataSize.C121_tensor_crs_violated"
   ],
   "note": "proved for Dense, tensor_Dense and CRS; violated by the code (proved) for COO<double>, which counts the int indices as doubles, and for tensor_COO and tensor_CRS, which do not count the index arrays at all; for these three an exact characterisation of when the answer is right"
  },
  {
   "property": "C13",
   "status": "partial",
   "theorems": [
    "Verif.C13_vector",
    "Verif.C13_dense_partial",
    "Verif.C13_dense_violated",
    "Verif.C13_coo_partial",
    "Verif.C13_coo_violated",
    "Verif.C13_coo_violated_witness",
    "Verif.C13_crs_self_violated",
    "Verif.C13_crs_violated",
    "Verif.C13_crs_partial",
    "Verif.C13_crs_sound_partial"
   ],
   "note": "vector proved in full; Dense exact at offset 0 and violated at offsets; COO exact for equal nnz, violated otherwise; CRS exact for rows<=nnz<=rows+1, out-of-bounds for nnz>rows+1, unsound below"
  },
  {
   "property": "C14",
   "status": "partial",
   "theorems": [
    "Verif.C14_ignores_contents",
    "Verif.C14_separates_violated",
    "Verif.C14_schedule_violated",
    "Verif.C14_same_structure_partial",
    "Verif.C14_combine_order"
   ],
   "note": "the code violates both halves; proved for all arrays that contents are ignored, and a witness for schedule dependence; what holds is proved as partial"
  },
  {
   "property": "C15",
   "status": "partial",
   "theorems": [
    "Verif.C15_matadd_partial",
    "Verif.C15_matsub_partial",
    "Verif.C15_rejection_violated",
    "Verif.C15_threads_violated",
    "Verif.C15_dense"
   ],
   "note": "sum/difference proved at every position for all same-structure CRS triples, and for all dense triples; rejection of different structures is violated"
  },
  {
   "property": "C16",
   "status": "proved",
   "theorems": [
    "Verif.C16_matvec_exact",
    "Verif.C16_matvec",
    "Verif.C16_matvec_T"
   ],
   "note": "every safe CRS matrix, every iteration order; exact variant needs no algebraic law"
  },
  {
   "property": "C17",
   "status": "partial",
   "theorems": [
    "Verif.C17_ignores_scalars",
    "Verif.C17_crs_violated",
    "Verif.C17_crs_partial",
    "Verif.C17_dense"
   ],
   "note": "CRS kernel ignores both scalars (proved, negation proved); right for a=1,b=0; Dense proved in full given reference gemv"
  },
  {
   "property": "C18",
   "status": "proved",
   "theorems": [
    "Verif.C18_scalar_exact",
    "Verif.C18_scalar",
    "Verif.C18_avx_exact",
    "Verif.C18_avx",
    "Verif.C18_dense"
   ],
   "note": "scalar and SIMD kernels for every shape and order; Dense given reference gemm"
  },
  {
   "property": "C19",
   "status": "partial",
   "theorems": [
    "Verif.C19_coo_diag",
    "Verif.C19_coo_row",
    "Verif.C19_coo_col",
    "Verif.C19_coo_sizes",
    "Verif.C19_crs_diag_partial",
    "Verif.C19_crs_col_partial",
    "Verif.C19_crs_row_partial",
    "Verif.C19_dense_partial",
    "Verif.C19_crs_rectangular_violated",
    "Verif.C19_crs_row_overflow",
    "Verif.C19_crs_view_violated",
    "Verif.C19_dense_violated"
   ],
   "note": "COO proved in full; CRS and Dense for targets without offset (CRS row/col square only); negations for the rest"
  },
  {
   "property": "C20",
   "status": "partial",
   "theorems": [
    "Verif.C20_dense_partial",
    "Verif.C20_dense_sizes",
    "Verif.C20_dense_violated",
    "Verif.C20_crs",
    "Verif.C20_crs_sizes"
   ],
   "note": "CRS proved in full; Dense for matrices stored from offset 0; with a data offset the code changes the wrong elements (negation)"
  },
  {
   "property": "C21",
   "status": "partial",
   "theorems": [
    "Verif.C21_in_bounds",
    "Verif.C21_partial",
    "Verif.C21_violated"
   ],
   "note": "in bounds for every shape; right for palindromic shapes (all equal extents); every m x n with m != n is wrong (negation)"
  },
  {
   "property": "C22",
   "status": "proved",
   "theorems": [
    "Verif.C22_run",
    "Verif.C22_newWith"
   ],
   "note": "all programs of push_back/resize, by induction on the program"
  },
  {
   "property": "C23",
   "status": "partial",
   "theorems": [
    "Verif.C23_access",
    "Verif.C23_vector_access",
    "Verif.C23_nested",
    "Verif.C23_vector_iterate",
    "Verif.C23_iterate_partial",
    "Verif.C23_iterate_violated",
    "Verif.C23_resize",
    "Verif.C23_dense_access",
    "Verif.C23_offset_target_violated",
    "Verif.C23_target_partial"
   ],
   "note": "element access, nesting and resize proved in full; iteration violated for every offset>0; targets with their own offset violated"
  },
  {
   "property": "C24",
   "status": "partial",
   "theorems": [
    "Verif.Conc.C24_elementwise",
    "Verif.Conc.C24_sizes_checked",
    "Verif.Conc.C24_times_size_violated",
    "Verif.Conc.C24_overlap_violated"
   ],
   "note": "all 26 element-wise functions, every interleaving of loads and stores, every exact aliasing; negations: times(a,b,y) does not check b, overlapping (non-coinciding) arguments make the result schedule dependent"
  },
  {
   "property": "C25",
   "status": "partial",
   "theorems": [
    "Verif.C25_sum",
    "Verif.C25_nrm1",
    "Verif.C25_dot",
    "Verif.C25_dot_sizes",
    "Verif.C25_nrm2",
    "Verif.C25_max",
    "Verif.C25_min",
    "Verif.C25_max_empty_violated",
    "Verif.C25_min_empty_violated"
   ],
   "note": "every combination tree and distribution; max/min of an empty vector is out of bounds (negation)"
  },
  {
   "property": "C26",
   "status": "proved",
   "theorems": [
    "Verif.Gen.C26_at",
    "Verif.Gen.C26_eye",
    "Verif.Gen.C26_frank",
    "Verif.Gen.C26_asym_band",
    "Verif.Gen.C26_band_actual",
    "Verif.Gen.C26_band",
    "Verif.Gen.C26_band_zero_diag_violated",
    "Verif.Gen.C26_band_reject",
    "Verif.Gen.C26_tridiagonal",
    "Verif.Gen.C26_laplacian_1D",
    "Verif.Gen.C26_laplacian_2D",
    "Verif.Gen.C26_toeplitz_plus_hankel",
    "Verif.Gen.C26_small_abort"
   ],
   "note": "all sizes of a C++ int, all values in any ring"
  },
  {
   "property": "C27",
   "status": "proved",
   "theorems": [
    "Verif.Gen.C27_random_structure",
    "Verif.Gen.C27_can_finish",
    "Verif.Gen.C27_reject",
    "Verif.Gen.C27_zero_value_violated",
    "Verif.Gen.C27_empty_violated"
   ],
   "note": "all streams of draws"
  },
  {
   "property": "C28",
   "status": "proved",
   "theorems": [
    "Verif.Mm.C28_output",
    "Verif.Mm.C28_reread",
    "Verif.Mm.C28_roundtrip",
    "Verif.Mm.C28_comments",
    "Verif.Mm.C28_print_all",
    "Verif.Mm.C28_no_columns_violated",
    "Verif.Mm.C28_nonfinite_violated",
    "Verif.Mm.C28_truncated_violated",
    "Verif.Mm.C28_truncated_newline_violated",
    "Verif.Mm.C28_comment_end_violated"
   ],
   "note": "all COO matrices; number printing/parsing is a parameter (Codec.Ok) and trusted"
  },
  {
   "property": "C29",
   "status": "proved",
   "theorems": [
    "Verif.Solver.C29_status",
    "Verif.Solver.C29_nonsquare",
    "Verif.Solver.C29_exact"
   ],
   "note": "status, reported iteration and residual for every arithmetic (C29_status); equality with textbook CG and its true residual in exact arithmetic, all matrices and preconditioners"
  },
  {
   "property": "C30",
   "status": "proved",
   "theorems": [
    "Verif.Solver.C30_status",
    "Verif.Solver.C30_nonsquare",
    "Verif.Solver.C30_exact",
    "Verif.Solver.C30_exact_guess"
   ],
   "note": "as for CG; an exact initial guess gives BREAKDOWN (C30_exact_guess)"
  },
  {
   "property": "C31",
   "status": "partial",
   "theorems": [
    "Verif.Solver.C31_fixed",
    "Verif.Solver.C31_exact_partial",
    "Verif.Solver.C31_nonsquare",
    "Verif.Solver.C31_reported_violated"
   ],
   "note": "fixed points and exact run for all matrices; the reported residual is not the compared one (negation)"
  },
  {
   "property": "C32",
   "status": "proved",
   "theorems": [
    "Verif.Solver.C32_lower_crs",
    "Verif.Solver.C32_lower_dense",
    "Verif.Solver.C32_fixed",
    "Verif.Solver.C32_iterates",
    "Verif.Solver.C32_exact_partial",
    "Verif.Solver.C32_precond",
    "Verif.Solver.C32_nonsquare",
    "Verif.Solver.C32_dense_precond_violated",
    "Verif.Solver.C32_unsorted_violated",
    "Verif.Solver.C32_reported_violated"
   ],
   "note": "all square matrices; the Dense preconditioner kernel reads out of bounds for every non-empty matrix and unsorted CRS rows give wrong results (negations, outside the claim)"
  },
  {
   "property": "C33",
   "status": "partial",
   "theorems": [
    "Verif.Solver.C33_violated",
    "Verif.Solver.C33_crs_violated"
   ],
   "note": "the property is false of the code for every system and exact guess; the negation is proved"
  },
  {
   "property": "C34",
   "status": "proved",
   "theorems": [
    "Verif.Solver.C34_residual_vanishes",
    "Verif.Solver.C34_terminates",
    "Verif.Solver.C34_crs",
    "Verif.Solver.C34_sor"
   ],
   "note": "all sizes, any SPD matrix and SPD preconditioner, any schedule; C34_sor: with the SOR preconditioner, any omega > 0"
  },
  {
   "property": "C35",
   "status": "proved",
   "theorems": [
    "Verif.Log.C35_log",
    "Verif.Log.C35_level",
    "Verif.Log.C35_off",
    "Verif.Log.C35_iff",
    "Verif.Log.C35_functions",
    "Verif.Log.C35_exception",
    "Verif.Log.C35_exceptions_violated",
    "Verif.Log.C35_vector_equal_violated",
    "Verif.Log.C35_same_size_violated",
    "Verif.Log.C35_same_size_partial",
    "Verif.Log.C35_linop_structure_violated",
    "Verif.Log.C35_linop_copy_violated",
    "Verif.Log.C35_throw_violated",
    "Verif.Log.C35_threads_partial",
    "Verif.Log.C35_threads_lines_violated"
   ],
   "note": "skeletons of all 708 logged functions extracted from the source text (tools/logger_extract.py, trusted); conditions uninterpreted; interleavings assume each logger call is atomic"
  },
  {
   "property": "C36",
   "status": "partial",
   "theorems": [
    "Verif.C36_bijection",
    "Verif.C36_insert_at",
    "Verif.C36_new",
    "Verif.C36_rank",
    "Verif.C36_range_violated",
    "Verif.C36_no_overrun"
   ],
   "note": "all ranks and shapes; negation: single indices are not range-checked, only the linear index"
  },
  {
   "property": "C37",
   "status": "partial",
   "theorems": [
    "Verif.C37_insert_at",
    "Verif.C37_sort_partial",
    "Verif.C37_sort_merge_partial",
    "Verif.C37_of_dense_partial",
    "Verif.C37_to_dense",
    "Verif.C37_round_trip",
    "Verif.C37_diag",
    "Verif.C37_sort_violated",
    "Verif.C37_sort_empty_violated",
    "Verif.C37_unchecked_violated",
    "Verif.C37_of_dense_violated"
   ],
   "note": "insert/at for all histories; sort for all tensors with at most 2^31 positions (negation beyond: the code truncates the linear index to int); conversions for storage offset 0 (negation otherwise)"
  },
  {
   "property": "C38",
   "status": "partial",
   "theorems": [
    "Verif.C38_reshape",
    "Verif.C38_rejects",
    "Verif.C38_rejected_violated"
   ],
   "note": "every request; negation: a rejected request leaves the object modified"
  },
  {
   "property": "C39",
   "status": "partial",
   "theorems": [
    "Verif.C39_tensmul",
    "Verif.C39_tensmat",
    "Verif.C39_mattens",
    "Verif.C39_tensvec",
    "Verif.C39_sizes",
    "Verif.C39_empty_violated",
    "Verif.C39_shape_violated"
   ],
   "note": "all ranks and shapes with a non-zero contracted extent, given reference gemm/gemv; negations: zero contracted extent divides by zero; shape of the result is not compared"
  },
  {
   "property": "C40",
   "status": "proved",
   "theorems": [
    "Verif.LinOp.C40_convert_crs",
    "Verif.LinOp.C40_convert_dense",
    "Verif.LinOp.C40_convert_coo",
    "Verif.LinOp.C40_add",
    "Verif.LinOp.C40_sub",
    "Verif.LinOp.C40_mul",
    "Verif.LinOp.C40_scalar",
    "Verif.LinOp.C40_add_live",
    "Verif.LinOp.C40_sub_live",
    "Verif.LinOp.C40_mul_live",
    "Verif.LinOp.C40_scalar_live",
    "Verif.LinOp.C40_copy",
    "Verif.LinOp.C40_assign",
    "Verif.LinOp.C40_matmul_crs",
    "Verif.LinOp.C40_matmul_dense",
    "Verif.LinOp.C40_matmul_coo",
    "Verif.LinOp.C40_to_dense",
    "Verif.LinOp.C40_to_dense_uninit"
   ],
   "note": "objects in a store, callbacks hold addresses; exact field arithmetic"
  },
  {
   "property": "C41",
   "status": "proved",
   "theorems": [
    "Verif.LinDiag.C41_vector",
    "Verif.LinDiag.C41_reject"
   ],
   "note": "all interleavings; the operator is a pure function of its argument"
  },
  {
   "property": "C42",
   "status": "partial",
   "theorems": [
    "Verif.Solver.C42_constant",
    "Verif.Solver.C42_violated"
   ],
   "note": "the property is false of the code; the negation is proved"
  },
  {
   "property": "C43",
   "status": "partial",
   "theorems": [
    "Verif.C43_dense_max",
    "Verif.C43_dense_min",
    "Verif.C43_view_partial",
    "Verif.C43_crs_max_partial",
    "Verif.C43_view_violated",
    "Verif.C43_crs_violated"
   ],
   "note": "Dense proved; views of negative data, full CRS and empty CRS violate it"
  },
  {
   "property": "C44",
   "status": "proved",
   "theorems": [
    "Verif.Conc.C44_alo"
   ],
   "note": ""
  },
  {
   "property": "C45",
   "status": "partial",
   "theorems": [
    "Verif.C45_dense",
    "Verif.C45_crs",
    "Verif.C45_dense_sizes",
    "Verif.C45_line_bound_violated"
   ],
   "note": "all variants proved, distinct or same object, every schedule; line number = number of lines passes the assertion and is out of bounds (negation)"
  },
  {
   "property": "C46",
   "status": "proved",
   "theorems": [
    "Verif.Shared.C46_move",
    "Verif.Shared.C46_move_shape",
    "Verif.Shared.C46_history",
    "Verif.Shared.C46_write",
    "Verif.Shared.C46_alias_resize",
    "Verif.Shared.C46_outlives",
    "Verif.Shared.C46_source_growth_violated"
   ],
   "note": "all object systems and histories that do not resize, destroy or re-bind the source; growing the source detaches it (shown as a negation, outside the claim)"
  },
  {
   "property": "C47",
   "status": "partial",
   "theorems": [
    "Verif.C47_convert",
    "Verif.C47_to_coo",
    "Verif.C47_round_trip",
    "Verif.C47_reuse_violated",
    "Verif.C47_reuse_elements_violated"
   ],
   "note": "all sorted coordinate tensors of rank >= 2 into a fresh target; negation for a re-used target"
  },
  {
   "property": "C48",
   "status": "partial",
   "theorems": [
    "Verif.Mpi.C48_fifo",
    "Verif.Mpi.C48_deliver",
    "Verif.Mpi.C48_exchange",
    "Verif.Mpi.C48_waitall",
    "Verif.Mpi.C48_bcast",
    "Verif.Mpi.C48_recv_scalar_violated",
    "Verif.Mpi.C48_async_scalar_violated",
    "Verif.Mpi.C48_isend_vector_violated",
    "Verif.Mpi.C48_empty_violated",
    "Verif.Mpi.C48_scatter_violated",
    "Verif.Mpi.C48_gather_violated",
    "Verif.Mpi.C48_initialized_violated",
    "Verif.Mpi.C48_allreduce_violated"
   ],
   "note": "vectors and Bcast proved; false for scalars, Scatter, Gather, Isend of monolish::vector, Initialized (negations for all inputs)"
  },
  {
   "property": "C49",
   "status": "partial",
   "theorems": [
    "Verif.C49_transpose_self_violated",
    "Verif.C49_transpose_self_partial"
   ],
   "note": "Code violates the property."
  },
  {
   "property": "C50",
   "status": "partial",
   "theorems": [
    "Verif.C50_copy",
    "Verif.C50_copy_equal_violated"
   ],
   "note": "all well-formed tensors; copy.equal(original) over-reads for every tensor with a slice (negation)"
  },
  {
   "property": "C51",
   "status": "partial",
   "theorems": [
    "Verif.C51_tensvec",
    "Verif.C51_tensmat",
    "Verif.C51_tensmul",
    "Verif.C51_times",
    "Verif.C51_times_row",
    "Verif.C51_tensvec_scalars_violated"
   ],
   "note": "all well-formed tensors, operands and schedules; tensvec only with a=1, b=0 (negation for other scalars)"
  },
  {
   "property": "C52",
   "status": "partial",
   "theorems": [
    "Verif.Shared.C52_view",
    "Verif.Shared.C52_view_write",
    "Verif.Shared.C52_resize_violated",
    "Verif.Shared.C52_offset_violated"
   ],
   "note": "all histories that keep the target's storage; every resize of a vector leaves its views dangling (negation)"
  },
  {
   "property": "C53",
   "status": "partial",
   "theorems": [
    "Verif.Solver.C53_violated",
    "Verif.Solver.C53_identity_violated"
   ],
   "note": "the property is false of the code; the negation is proved for all such systems"
  },
  {
   "property": "C54",
   "status": "proved",
   "theorems": [
    "Verif.Solver.C54_jacobi_converges",
    "Verif.Solver.C54_rate",
    "Verif.Solver.jacobi_contract"
   ],
   "note": "all sizes, Archimedean ordered field"
  },
  {
   "property": "C55",
   "status": "partial",
   "theorems": [
    "Verif.Solver.C55_jacobi_violated",
    "Verif.Solver.C55_sor_violated"
   ],
   "note": "the property is false of the code; the negation is proved for all systems"
  },
  {
   "property": "C56",
   "status": "partial",
   "theorems": [
    "Verif.Solver.C56_violated",
    "Verif.Solver.C56_fixed"
   ],
   "note": "the property is false of the code; negation on a concrete system, and characterisation of the fixed points"
  },
  {
   "property": "C57",
   "status": "proved",
   "theorems": [
    "Verif.Solver.C57_spd",
    "Verif.Solver.C57_dominant",
    "Verif.Solver.C57_rate",
    "Verif.Solver.sor_energy"
   ],
   "note": "all sizes, Archimedean ordered field"
  },
  {
   "property": "C58",
   "status": "partial",
   "theorems": [
    "Verif.Solver.C58_violated"
   ],
   "note": "the property is false of the code; the negation is proved for all systems"
  },
  {
   "property": "C59",
   "status": "partial",
   "theorems": [
    "Verif.Solver.C59_residual",
    "Verif.Solver.C59_rectangular_violated",
    "Verif.Solver.Dev.C59_device_partial",
    "Verif.Solver.Dev.C59_gpu_host_violated"
   ],
   "note": "violated by the code (proved): in a GPU build the call aborts for arguments on the host, because the scratch vector is sent to the device. Proved for all square matrices otherwise; rectangular ones abort (negation, outside the claim)"
  },
  {
   "property": "C60",
   "status": "partial",
   "theorems": [
    "Verif.Gen.C60_tridiagonal",
    "Verif.Gen.C60_laplacian_1D",
    "Verif.Gen.C60_toeplitz_plus_hankel_partial",
    "Verif.Gen.C60_toeplitz_plus_hankel_order_violated",
    "Verif.Gen.C60_frank_spectrum",
    "Verif.Gen.C60_frank_partial",
    "Verif.Gen.C60_frank_violated"
   ],
   "note": "tridiagonal and 1D Laplacian completely; Toeplitz-plus-Hankel: eigenvalue but not ordered (negation); Frank: shifted by one, value at N=1 is not an eigenvalue (negation)"
  },
  {
   "property": "C61",
   "status": "partial",
   "theorems": [
    "Verif.LinOp.C61_inplace_violated",
    "Verif.LinOp.C61_inplace_scalar_violated",
    "Verif.LinOp.C61_temporary_scalar_violated",
    "Verif.LinOp.C61_copy_dangling_violated",
    "Verif.LinOp.C61_copy_matmul_violated",
    "Verif.LinOp.C61_stale_matmul_violated",
    "Verif.LinOp.C61_stale_rmatvec_violated",
    "Verif.LinOp.C61_size_violated"
   ],
   "note": "false of the code; negations proved for all operators of each kind"
  },
  {
   "property": "C62",
   "status": "partial",
   "theorems": [
    "Verif.LinDiag.C62_view_partial",
    "Verif.LinDiag.C62_view_offset_violated",
    "Verif.LinDiag.C62_view_race_violated"
   ],
   "note": "holds for one thread and a view at offset 0; false otherwise (negations: offset ignored, shared scratch vector)"
  },
  {
   "property": "C63",
   "status": "proved",
   "theorems": [
    "Verif.Mpi.C63_sum",
    "Verif.Mpi.C63_nrm1",
    "Verif.Mpi.C63_dot",
    "Verif.Mpi.C63_nrm2"
   ],
   "note": "exact arithmetic; MPI_Allreduce trusted"
  },
  {
   "property": "C64",
   "status": "proved",
   "theorems": [
    "Verif.Dispatch.C64_elementwise_api"
   ],
   "note": "all 6238 overloads extracted from the sources by tools/dispatch_gen.py; containers of one shape and pattern, output equal to or disjoint from each input; <cmath>, MKL, CBLAS functions trusted; exact arithmetic"
  },
  {
   "property": "C65",
   "status": "partial",
   "theorems": [
    "Verif.Dispatch.C65_shapes_checked",
    "Verif.Dispatch.C65_structure_checked_partial",
    "Verif.Dispatch.C65_structure_violated",
    "Verif.Conc.C24_times_size_violated"
   ],
   "note": "shapes: all functions except blas::times(a,b,y); structure hash: all except vml::add/sub/mul/div(A, scalar, C) on CRS and tensor_CRS (negations)"
  },
  {
   "property": "C66",
   "status": "proved",
   "theorems": [
    "Verif.Dispatch.C66_binary",
    "Verif.Dispatch.C66_scalar",
    "Verif.Dispatch.C66_unary",
    "Verif.Dispatch.C66_alo"
   ],
   "note": "tables extracted from the sources"
  },
  {
   "property": "C67",
   "status": "partial",
   "theorems": [
    "Verif.Lapack.C67_lu_solve",
    "Verif.Lapack.C67_lu_inplace",
    "Verif.Lapack.C67_short_rhs_ub",
    "Verif.Lapack.C67_empty_violated",
    "Verif.Lapack.C67_rectangular_violated",
    "Verif.Lapack.exists_lib"
   ],
   "note": "proved for every square matrix with n > 0 and matching sizes, relative to the LAPACK contract (shown satisfiable); negations: n = 0 reports BREAKDOWN, non-square matrices are accepted, a short right-hand side is written out of bounds"
  },
  {
   "property": "C68",
   "status": "partial",
   "theorems": [
    "Verif.Lapack.C68_cholesky_solve",
    "Verif.Lapack.C68_cholesky_inplace",
    "Verif.Lapack.C68_cholesky_lower",
    "Verif.Lapack.C68_nonsymmetric_violated",
    "Verif.Lapack.exists_lib"
   ],
   "note": "proved for every symmetric matrix with n > 0, relative to the LAPACK contract; symmetry is not checked (negation)"
  },
  {
   "property": "C69",
   "status": "partial",
   "theorems": [
    "Verif.Lapack.C69_dc_standard",
    "Verif.Lapack.C69_dc_generalized",
    "Verif.Lapack.C69_other_lib_violated",
    "Verif.Lapack.C69_short_lambda_ub",
    "Verif.Lapack.exists_lib_real"
   ],
   "note": "relative to the LAPACK contract; negations: with set_lib(k), k != 0, SUCCESS is returned without any computation; size of lambda unchecked"
  },
  {
   "property": "C70",
   "status": "proved",
   "theorems": [
    "Verif.Lobpcg.C70_lobpcg_standard_success",
    "Verif.Lobpcg.C70_lobpcg_no_precond"
   ],
   "note": "any sygvd whatsoever; IEEE-like arithmetic without rounding (Spec/Ext.lean)"
  },
  {
   "property": "C71",
   "status": "partial",
   "theorems": [
    "Verif.Lobpcg.C71_lobpcg_generalized_violated",
    "Verif.Lobpcg.C71_lobpcg_generalized_partial",
    "Verif.Lobpcg.C71_lobpcg_identity_partial"
   ],
   "note": "the code tests A v - lambda v (no B): negation on a concrete positive definite pair where LAPACK is exact; what it does certify is proved for all inputs"
  },
  {
   "property": "C72",
   "status": "partial",
   "theorems": [
    "Verif.Lobpcg.C72_lobpcg_termination_violated",
    "Verif.Lobpcg.C72_lobpcg_terminates_partial",
    "Verif.MpiLobpcg.C72_lobpcg_total_partial",
    "Verif.MpiLobpcg.C72_lobpcg_generalized_total_partial"
   ],
   "note": "the code repeats an iteration forever when the projected matrix is singular (e.g. all eigenpairs of diag(1,2) from orthonormal start vectors); ends within maxiter if LAPACK never reports that, and then (total_partial) returns normally with a documented code for every usable matrix, preconditioner and start"
  },
  {
   "property": "C73",
   "status": "proved",
   "theorems": [
    "Verif.Shared.C73_fill",
    "Verif.Shared.C73_fill_sparse",
    "Verif.Shared.C73_set_last_violated"
   ],
   "note": "views as constructed or resized; after set_last the loop bound and the size disagree (negation)"
  },
  {
   "property": "C74",
   "status": "partial",
   "theorems": [
    "Verif.Shared.C74_assign_partial",
    "Verif.Shared.C74_assign_sizes",
    "Verif.Shared.C74_view_offset_violated",
    "Verif.Shared.C74_view_offset_ub"
   ],
   "note": "all class pairs except view1D = view1D with an offset in the source, for which the negation is proved for all views (offset counted twice; out of bounds otherwise)"
  },
  {
   "property": "C75",
   "status": "partial",
   "theorems": [
    "Verif.Shared.C75_iterate_object",
    "Verif.Shared.C75_iterate_view_partial",
    "Verif.Shared.C75_iterate_view_violated"
   ],
   "note": "objects: proved; views: end() ignores the offset, so the loop meets all elements iff the offset is 0 (proved for all views)"
  },
  {
   "property": "C76",
   "status": "partial",
   "theorems": [
    "Verif.Shared.C76_access_partial",
    "Verif.Shared.C76_insert_partial",
    "Verif.Shared.C76_at_range_violated",
    "Verif.Shared.C76_nested_violated",
    "Verif.Shared.C76_moved_violated"
   ],
   "note": "views of objects that start their storage; negations for nested views, moved targets and out-of-range at()"
  },
  {
   "property": "C77",
   "status": "partial",
   "theorems": [
    "Verif.Shared.C77_resize_partial",
    "Verif.Shared.C77_nested_violated",
    "Verif.Shared.C77_assign_std_partial"
   ],
   "note": "views of objects; for views of views resize aborts although the extent fits (negation for all offsets)"
  },
  {
   "property": "C78",
   "status": "partial",
   "theorems": [
    "Verif.C78_of_arrays",
    "Verif.C78_of_arrays_ub",
    "Verif.C78_of_arrays_origin",
    "Verif.C78_copy",
    "Verif.C78_copy_with",
    "Verif.C78_set_ptr",
    "Verif.C78_set_ptr_violated",
    "Verif.C78_assign_partial",
    "Verif.C78_assign_violated",
    "Verif.C78_assign_ub"
   ],
   "note": "constructors proved in full; negations: A = B accepts (and truncates) a longer right-hand side, reads out of bounds for a shorter one; set_ptr accepts mismatched lengths"
  },
  {
   "property": "C79",
   "status": "partial",
   "theorems": [
    "Verif.C79_of_arrays",
    "Verif.C79_of_arrays_origin",
    "Verif.C79_set_ptr",
    "Verif.C79_assign_partial",
    "Verif.C79_assign_sizes",
    "Verif.C79_assign_violated"
   ],
   "note": "construction proved in full; A = B proved for equal structures; negation: different structures are accepted because the hash ignores contents"
  },
  {
   "property": "C80",
   "status": "partial",
   "theorems": [
    "Verif.C80_of_arrays",
    "Verif.C80_copy",
    "Verif.C80_copy_with",
    "Verif.C80_set_ptr",
    "Verif.C80_equal_partial",
    "Verif.C80_equal_violated"
   ],
   "note": "construction proved in full; == exact for equal nnz; negation for all tensors that are a proper prefix"
  },
  {
   "property": "C81",
   "status": "partial",
   "theorems": [
    "Verif.Prog.C81_example_partial",
    "Verif.Prog.C81_example_sorted",
    "Verif.Prog.C81_column_order_violated"
   ],
   "note": "proved for files listed row by row, and for every order if sort(false) is called; negation: a column-ordered file gives SUCCESS with a wrong x; exact arithmetic"
  },
  {
   "property": "C82",
   "status": "proved",
   "theorems": [
    "Verif.Prog.C82_tridiagonal",
    "Verif.Prog.C82_laplacian_1D",
    "Verif.Prog.C82_laplacian_2D",
    "Verif.Prog.C82_sor_tridiagonal",
    "Verif.Prog.C82_sor_laplacian_2D",
    "Verif.Prog.C82_tridiagonal_rate"
   ],
   "note": "exact arithmetic over an ordered field (Archimedean for SOR); sizes below 2^31"
  },
  {
   "property": "C83",
   "status": "partial",
   "theorems": [
    "Verif.Dev.C83_portable",
    "Verif.Dev.C83_received",
    "Verif.Dev.C83_send_twice_loses",
    "Verif.Dev.C83_free_loses",
    "Verif.Dev.C83_mixed_aborts"
   ],
   "note": "all programs that follow the three rules of Spec.Device.Portable; negations for programs that break each rule; model of the OpenMP 5.0 device data environment"
  },
  {
   "property": "C84",
   "status": "partial",
   "theorems": [
    "Verif.Dev.C84_flags",
    "Verif.Dev.C84_copy",
    "Verif.Dev.C84_destroy",
    "Verif.Dev.C84_moved_known",
    "Verif.Dev.C84_part_recv_loses",
    "Verif.Dev.C84_part_send_ub",
    "Verif.Dev.C84_owner_destroyed_loses",
    "Verif.Dev.C84_moved_into_leaks"
   ],
   "note": "proved for all programs on whole, separate objects (also shared by move); negations: move from a view of a part, destruction of the source of a move, move into an object that is on the device"
  },
  {
   "property": "C85",
   "status": "partial",
   "theorems": [
    "Verif.Shared.C85_dims",
    "Verif.Shared.C85_dims_throw",
    "Verif.Shared.C85_dims_zero_ub",
    "Verif.Shared.C85_move_dims",
    "Verif.Shared.C85_move_dims_throw",
    "Verif.Shared.C85_move_flat",
    "Verif.Shared.C85_reshape",
    "Verif.Shared.C85_neg",
    "Verif.Shared.C85_view_move_partial",
    "Verif.Shared.C85_view_move_violated",
    "Verif.Shared.C85_view_move_abort",
    "Verif.Shared.C85_view_move_dims_violated"
   ],
   "note": "proved except: move(t,-1,0) divides by zero; view_Dense::move assigns through its reference member, overwriting all of its old target (or aborting), and ignores the requested extents"
  },
  {
   "property": "C86",
   "status": "partial",
   "theorems": [
    "Verif.C86_rows",
    "Verif.C86_cols",
    "Verif.C86_row",
    "Verif.C86_col",
    "Verif.C86_sizes",
    "Verif.C86_line_bound_violated",
    "Verif.C86_empty_violated"
   ],
   "note": "values proved in full; negations: line number one past the end is accepted and accessed; an empty extent divides by zero"
  },
  {
   "property": "C87",
   "status": "partial",
   "theorems": [
    "Verif.Product.C87_product",
    "Verif.Product.C87_scaled",
    "Verif.Product.C87_scalars_dropped_partial",
    "Verif.Product.C87_transposed",
    "Verif.Product.C87_transposed_scaled",
    "Verif.Product.C87_complete"
   ],
   "note": "all overloads (generated table, checked row by row by kernel evaluation); sparse matrix-vector products with scalars ignore them (see the negation C17_crs_violated); the contracted extent must be positive; LinearOperator overloads are in C40"
  },
  {
   "property": "C88",
   "status": "partial",
   "theorems": [
    "Verif.Reduction.C88_sum",
    "Verif.Reduction.C88_abs",
    "Verif.Reduction.C88_nrm2",
    "Verif.Reduction.C88_dot",
    "Verif.Reduction.C88_dot_sizes",
    "Verif.Reduction.C88_max",
    "Verif.Reduction.C88_min",
    "Verif.Reduction.C88_clamped_partial",
    "Verif.Reduction.C88_max_violated",
    "Verif.Reduction.C88_complete"
   ],
   "note": "all overloads (generated table, checked row by row by kernel evaluation); max and min of views of matrices and tensors and of sparse objects also compare with 0 (C88_clamped_partial, C88_max_violated); max and min need at least one element (C25)"
  },
  {
   "property": "C89",
   "status": "partial",
   "theorems": [
    "Verif.MyCg.C89_same",
    "Verif.MyCg.C89_main",
    "Verif.MyCg.C89_exact_start_violated"
   ],
   "note": "equality with equation::CG for every arithmetic; convergence in exact arithmetic for every start vector that is not already the solution (negation: then x becomes NaN and the logger is left open)"
  },
  {
   "property": "C90",
   "status": "partial",
   "theorems": [
    "Verif.C90_vector",
    "Verif.C90_view1D",
    "Verif.C90_coo",
    "Verif.C90_crs",
    "Verif.C90_dense",
    "Verif.C90_view_dense",
    "Verif.C90_tensor",
    "Verif.C90_view_tensor",
    "Verif.C90_tcoo",
    "Verif.C90_tcrs",
    "Verif.C90_offset_violated",
    "Verif.C90_rank_violated"
   ],
   "note": "every class; false (negations proved) for a vector, Dense or tensor_Dense with a positive offset (after a move from a view), which print from the start of the buffer, and for a tensor_CRS of rank below 2"
  },
  {
   "property": "C91",
   "status": "partial",
   "theorems": [
    "Verif.Lapack.C91_spectrum",
    "Verif.Lapack.C91_example",
    "Verif.Lapack.C91_failure_violated"
   ],
   "note": "full for the spectrum and the printed values, for every LAPACK that meets the contract of Spec/LapackSpec.lean; the failure signal is false (negation proved): the program's error branch is dead because solver_check is constant"
  },
  {
   "property": "C92",
   "status": "partial",
   "theorems": [
    "Verif.Prog.C92_lu",
    "Verif.Prog.C92_bicg_partial",
    "Verif.Prog.C92_singular_violated"
   ],
   "note": "LU: full for nonsingular files; BiCGSTAB: exact arithmetic, runs without division by zero (else C93); failure report is false (negation proved): the program's error branch is dead because solver_check is constant"
  },
  {
   "property": "C93",
   "status": "partial",
   "theorems": [
    "Verif.Solver.C93_half_step",
    "Verif.Solver.C93_outcome_partial",
    "Verif.Solver.C93_violated"
   ],
   "note": "the half step of iteration n (at the latest) is proved to be the exact solution; the code does not stop there: omega = 0/0 and x becomes NaN (negation C93_violated, for every matrix); SUCCESS only if an earlier iterate passes the test"
  },
  {
   "property": "C94",
   "status": "proved",
   "theorems": [
    "Verif.LineOp.C94_rows",
    "Verif.LineOp.C94_cols",
    "Verif.LineOp.C94_row",
    "Verif.LineOp.C94_col",
    "Verif.LineOp.C94_complete"
   ],
   "note": "all overloads (generated table, checked row by row by kernel evaluation); extents along the vector positive; invalid line numbers are in C45 and C86"
  },
  {
   "property": "C95",
   "status": "partial",
   "theorems": [
    "Verif.Product.C95_products",
    "Verif.Product.C95_products_violated",
    "Verif.LineOp.C95_lines",
    "Verif.LineOp.C95_lines_violated",
    "Verif.Reduction.C95_reductions",
    "Verif.Dispatch.C95_elementwise",
    "Verif.Dispatch.C95_elementwise_violated"
   ],
   "note": "exact: declared = defined minus an explicit set of 876 overloads (iff theorems); the code violates the full claim (negations proved): e.g. matvec of a matrix view and tensvec with scalars are defined but not declared, 8 CRS line operations are declared but not defined; LinearOperator overloads are outside the tables"
  },
  {
   "property": "C96",
   "status": "partial",
   "theorems": [
    "Verif.Diag.C96_dense_partial",
    "Verif.Diag.C96_crs",
    "Verif.Diag.C96_tensor_partial",
    "Verif.Diag.C96_complete",
    "Verif.C20_dense_violated",
    "Verif.C21_violated"
   ],
   "note": "no overload is wired wrongly (all 360, all 24 kernel operators); CRS: full; Dense and its views: offset 0 (at another offset the code changes the wrong elements: C20_dense_violated); tensors: shapes that read the same backwards (else the wrong elements: C21_violated)"
  },
  {
   "property": "C97",
   "status": "partial",
   "theorems": [
    "Verif.Solver.C97_same_cg",
    "Verif.Solver.C97_same_bicg",
    "Verif.Solver.C97_same_jacobi",
    "Verif.Solver.C97_same_sor",
    "Verif.Solver.C97_cg",
    "Verif.Solver.C97_bicg",
    "Verif.Solver.C97_sor",
    "Verif.Solver.C97_jacobi_partial",
    "Verif.Solver.C97_every_line_cg",
    "Verif.Solver.C97_every_line_bicg",
    "Verif.Solver.C97_every_line_jacobi",
    "Verif.Solver.C97_every_line_sor",
    "Verif.Solver.C97_exact_cg",
    "Verif.Solver.C97_silent",
    "Verif.Solver.C97_jacobi_last_violated"
   ],
   "note": "CG and BiCGSTAB: full; SOR shows get_final_residual()/nrm2(b); Jacobi violates the part about the last line (negation proved); Jacobi and SOR print the residual before the sweep (line k+1 belongs to the run limited to k iterations); the rounding of the printed number to decimal digits is not modelled"
  },
  {
   "property": "C98",
   "status": "partial",
   "theorems": [
    "Verif.Solver.C98_plain",
    "Verif.Solver.C98_precond",
    "Verif.Solver.C98_safe",
    "Verif.Solver.C98_destination",
    "Verif.Solver.C98_crs",
    "Verif.Solver.C98_dense",
    "Verif.Solver.C98_filename_violated",
    "Verif.Solver.C98_copy_violated",
    "Verif.Solver.C98_stale_violated",
    "Verif.Solver.C98_dangling_violated"
   ],
   "note": "full for programs that do not copy solver objects, register create and apply together and keep the preconditioner object alive; otherwise the code violates the claim (negations proved): a copy deletes the stream twice, set_apply_precond alone applies a stale preconditioner, a destroyed preconditioner is used; set_print_rhistory resets the destination to standard output. Host memory only"
  },
  {
   "property": "C99",
   "status": "partial",
   "theorems": [
    "Verif.Machine.C99_insert",
    "Verif.Machine.C99_at",
    "Verif.Machine.C99_sort",
    "Verif.Machine.C99_convert_crs",
    "Verif.Machine.C99_convert_coo",
    "Verif.Machine.C99_matvec",
    "Verif.Machine.C99_transpose",
    "Verif.Machine.C99_program",
    "Verif.Machine.C99_laplacian",
    "Verif.Machine.C99_alias_violated",
    "Verif.Machine.C99_convert_violated",
    "Verif.Machine.C99_laplacian_violated",
    "Verif.Machine.C99_laplacian_counter_violated"
   ],
   "note": "full for the stated sizes except the grid Laplacian, where 5 m n <= INT_MAX is needed: the code counts the elements in an int it never reads, so 21000 x 21000 points are undefined (negation proved). For larger sizes the public size_t interface accepts the values and the code aliases rows or writes out of bounds (negations proved). Sizes of allocations are unbounded in the model"
  }
 ]
}