# Axioms of the theorems in MANIFEST.json

Generated with `#print axioms`.

| property | theorem | axioms |
|---|---|---|
| C01 | `Verif.C01_insert_at` | propext, Classical.choice, Quot.sound |
| C01 | `Verif.C01_reachable_wf` | propext, Quot.sound |
| C02 | `Verif.C02_sort_permutes` | propext, Classical.choice, Quot.sound |
| C03 | `Verif.C03_sort_merge` | propext, Classical.choice, Quot.sound |
| C04 | `Verif.C04_merge_value_violated` | propext |
| C04 | `Verif.C04_merge_value_partial` | propext, Classical.choice, Quot.sound |
| C05 | `Verif.C05_sort_empty_violated` | propext |
| C05 | `Verif.C05_sort_empty_partial` | propext, Classical.choice, Quot.sound |
| C06 | `Verif.C06_convert_rows` | propext, Classical.choice, Quot.sound |
| C06 | `Verif.C06_convert_any_target_partial` | propext, Classical.choice, Quot.sound |
| C06 | `Verif.C06_row_ptr_end_violated` | propext |
| C06 | `Verif.C06_reuse_violated` | propext |
| C07 | `Verif.C07_crs_to_coo` | propext, Quot.sound |
| C07 | `Verif.C07_round_trip` | propext, Classical.choice, Quot.sound |
| C08 | `Verif.C08_coo_to_dense` | propext, Classical.choice, Quot.sound |
| C08 | `Verif.C08_dense_to_coo` | propext, Classical.choice, Quot.sound |
| C08 | `Verif.C08_round_trip` | propext, Classical.choice, Quot.sound |
| C08 | `Verif.C08_offset_target_violated` | propext |
| C09 | `Verif.C09_copy` | propext, Quot.sound |
| C09 | `Verif.C09_copy_with_value_violated` | propext |
| C09 | `Verif.C09_convert_violated` | propext |
| C09 | `Verif.C09_copy_with_value_partial` | propext, Quot.sound |
| C09 | `Verif.C09_convert_partial` | propext, Quot.sound |
| C10 | `Verif.C10_transpose` | propext, Classical.choice, Quot.sound |
| C10 | `Verif.C10_transpose_twice` | none |
| C10 | `Verif.C10_transpose_from` | propext, Classical.choice, Quot.sound |
| C100 | `Verif.Round.C100_sum` | propext, Classical.choice, Quot.sound |
| C100 | `Verif.Round.C100_nrm1` | propext, Classical.choice, Quot.sound |
| C100 | `Verif.Round.C100_dot` | propext, Classical.choice, Quot.sound |
| C100 | `Verif.Round.C100_nrm2` | propext, Classical.choice, Quot.sound |
| C100 | `Verif.Round.C100_schedules` | propext, Classical.choice, Quot.sound |
| C100 | `Verif.Round.C100_matvec` | propext, Classical.choice, Quot.sound |
| C100 | `Verif.Round.C100_matvec_T` | propext, Classical.choice, Quot.sound |
| C100 | `Verif.Round.C100_integer_sum` | propext, Classical.choice, Quot.sound |
| C100 | `Verif.Round.C100_integer_dot` | propext, Classical.choice, Quot.sound |
| C100 | `Verif.Round.C100_ieee` | propext, Classical.choice, Quot.sound |
| C100 | `Verif.Round.C100_reproducible_violated` | propext, Classical.choice, Quot.sound |
| C101 | `Verif.Viewer.C101_layer1` | propext, Classical.choice, Quot.sound |
| C101 | `Verif.Viewer.C101_solver` | propext, Classical.choice, Quot.sound |
| C101 | `Verif.Viewer.C101_shares` | propext, Classical.choice, Quot.sound |
| C101 | `Verif.Viewer.C101_empty_violated` | propext, Classical.choice, Quot.sound |
| C101 | `Verif.Viewer.C101_lost_violated` | propext, Classical.choice, Quot.sound |
| C102 | `Verif.Solver.C102_optimal` | propext, Classical.choice, Quot.sound |
| C102 | `Verif.Solver.C102_terminates` | propext, Classical.choice, Quot.sound |
| C102 | `Verif.Solver.C102_rate_simple` | propext, Classical.choice, Quot.sound |
| C102 | `Verif.Solver.C102_rate` | propext, Classical.choice, Quot.sound |
| C102 | `Verif.Solver.C102_solve` | propext, Classical.choice, Quot.sound |
| C102 | `Verif.Solver.C102_crs` | propext, Classical.choice, Quot.sound |
| C102 | `Verif.Solver.C102_sor` | propext, Classical.choice, Quot.sound |
| C102 | `Verif.Solver.C102_sgs` | propext, Classical.choice, Quot.sound |
| C102 | `Verif.Solver.C102_ssor` | propext, Classical.choice, Quot.sound |
| C102 | `Verif.Solver.C102_jacobi` | propext, Classical.choice, Quot.sound |
| C102 | `Verif.Solver.C102_dominant` | propext, Classical.choice, Quot.sound |
| C102 | `Verif.Solver.C102_sgs_dominant` | propext, Classical.choice, Quot.sound |
| C102 | `Verif.Solver.C102_toeplitz` | propext, Classical.choice, Quot.sound |
| C103 | `Verif.Gap.C103_gap` | propext, Classical.choice, Quot.sound |
| C103 | `Verif.Gap.C103_cg` | propext, Classical.choice, Quot.sound |
| C103 | `Verif.Gap.C103_bicgstab` | propext, Classical.choice, Quot.sound |
| C103 | `Verif.Gap.C103_success` | propext, Classical.choice, Quot.sound |
| C103 | `Verif.Gap.C103_bicgstab_success` | propext, Classical.choice, Quot.sound |
| C103 | `Verif.Gap.C103_formats` | propext, Classical.choice, Quot.sound |
| C103 | `Verif.Gap.C103_tolerance_violated` | propext, Classical.choice, Quot.sound |
| C104 | `Verif.Lobpcg.C104_eigenvalues` | propext, Classical.choice, Quot.sound |
| C104 | `Verif.Lobpcg.C104_no_precond` | propext, Classical.choice, Quot.sound |
| C104 | `Verif.Lobpcg.C104_jacobi` | propext, Classical.choice, Quot.sound |
| C104 | `Verif.Lobpcg.C104_sor` | propext, Classical.choice, Quot.sound |
| C104 | `Verif.Prog.C104_smallest_violated` | propext, Classical.choice, Quot.sound |
| C104 | `Verif.Prog.C104_example_repaired` | propext, Classical.choice, Quot.sound |
| C104 | `Verif.Prog.C104_example_violated` | propext, Classical.choice, Quot.sound |
| C104 | `Verif.Prog.C104_example_partial` | propext, Classical.choice, Quot.sound |
| C105 | `Verif.Solver.C105_cg_same` | propext, Quot.sound |
| C105 | `Verif.Solver.C105_bicg_same` | propext, Quot.sound |
| C105 | `Verif.Solver.C105_jacobi_same` | propext, Quot.sound |
| C105 | `Verif.Solver.C105_operator` | propext, Classical.choice, Quot.sound |
| C105 | `Verif.Solver.C105_dense` | propext, Classical.choice, Quot.sound |
| C105 | `Verif.Solver.C105_cg` | propext, Classical.choice, Quot.sound |
| C105 | `Verif.Solver.C105_sum` | propext, Classical.choice, Quot.sound |
| C105 | `Verif.Solver.C105_dangling_violated` | propext, Quot.sound |
| C105 | `Verif.Lobpcg.C105_lobpcg_same` | propext, Quot.sound |
| C105 | `Verif.Lobpcg.C105_lobpcg_generalized_same` | propext, Quot.sound |
| C105 | `Verif.Lobpcg.C105_lobpcg_dense` | propext, Classical.choice, Quot.sound |
| C105 | `Verif.Lobpcg.C105_lobpcg_operator` | propext, Classical.choice, Quot.sound |
| C106 | `Verif.LogRace.C106_race_iff` | propext, Quot.sound |
| C106 | `Verif.LogRace.C106_safe` | propext, Classical.choice, Quot.sound |
| C106 | `Verif.LogRace.C106_lost_violated` | propext, Classical.choice, Quot.sound |
| C106 | `Verif.LogRace.C106_diag_race_iff` | propext, Quot.sound |
| C106 | `Verif.LogRace.C106_diag_safe` | propext, Classical.choice, Quot.sound |
| C106 | `Verif.LogRace.C106_diag_violated` | propext, Classical.choice, Quot.sound |
| C107 | `Verif.Solver.Dev.C107_cg` | propext, Classical.choice, Quot.sound |
| C107 | `Verif.Solver.Dev.C107_bicg` | propext, Classical.choice, Quot.sound |
| C107 | `Verif.Solver.Dev.C107_jacobi_partial` | propext, Classical.choice, Quot.sound |
| C107 | `Verif.Solver.Dev.C107_sor_partial` | propext, Classical.choice, Quot.sound |
| C107 | `Verif.Solver.Dev.C107_portable` | propext, Classical.choice, Quot.sound |
| C107 | `Verif.Solver.Dev.C107_jacobi_violated` | propext, Quot.sound |
| C107 | `Verif.Solver.Dev.C107_sor_violated` | propext, Quot.sound |
| C107 | `Verif.Solver.Dev.C107_mixed_violated` | propext, Quot.sound |
| C107 | `Verif.Solver.Dev.C107_pc_violated` | propext, Classical.choice, Quot.sound |
| C107 | `Verif.Solver.Dev.C107_stale_violated` | propext, Classical.choice, Quot.sound |
| C108 | `Verif.MpiSolver.C108_cg` | propext, Quot.sound |
| C108 | `Verif.MpiSolver.C108_bicg` | propext, Quot.sound |
| C108 | `Verif.MpiSolver.C108_jacobi` | propext, Quot.sound |
| C108 | `Verif.MpiSolver.C108_sor` | propext, Quot.sound |
| C108 | `Verif.MpiSolver.C108_together` | propext, Classical.choice, Quot.sound |
| C108 | `Verif.MpiSolver.C108_together_sor` | propext, Classical.choice, Quot.sound |
| C108 | `Verif.MpiSolver.C108_crs` | propext, Classical.choice, Quot.sound |
| C108 | `Verif.MpiSolver.C108_cg_spd` | propext, Classical.choice, Quot.sound |
| C108 | `Verif.MpiSolver.C108_square_violated` | none |
| C108 | `Verif.MpiSolver.C108_maxiter_violated` | propext, Classical.choice, Quot.sound |
| C109 | `Verif.Construct.C109_vec_fill` | propext, Quot.sound |
| C109 | `Verif.Construct.C109_vec_random` | propext, Quot.sound |
| C109 | `Verif.Construct.C109_random_vector` | propext, Quot.sound |
| C109 | `Verif.Construct.C109_vec_list` | propext, Quot.sound |
| C109 | `Verif.Construct.C109_vec_view` | propext, Quot.sound |
| C109 | `Verif.Construct.C109_copy_partial` | propext, Quot.sound |
| C109 | `Verif.Construct.C109_copy_violated` | propext |
| C109 | `Verif.Construct.C109_dense_ptr` | propext, Quot.sound |
| C109 | `Verif.Construct.C109_dense_list_partial` | propext, Quot.sound |
| C109 | `Verif.Construct.C109_dense_list_violated` | propext |
| C109 | `Verif.Construct.C109_dense_vec_partial` | propext, Classical.choice, Quot.sound |
| C109 | `Verif.Construct.C109_dense_vec_violated` | propext, Quot.sound |
| C109 | `Verif.Construct.C109_dense_random` | propext, Quot.sound |
| C109 | `Verif.Construct.C109_dense_fill` | propext, Quot.sound |
| C109 | `Verif.Construct.C109_dense_like` | propext, Quot.sound |
| C109 | `Verif.Construct.C109_dense_view` | propext, Quot.sound |
| C109 | `Verif.Construct.C109_tens_ptr` | propext, Classical.choice, Quot.sound |
| C109 | `Verif.Construct.C109_tens_list_partial` | propext, Classical.choice, Quot.sound |
| C109 | `Verif.Construct.C109_tens_list_violated` | propext |
| C109 | `Verif.Construct.C109_tens_random` | propext, Classical.choice, Quot.sound |
| C109 | `Verif.Construct.C109_tens_copy` | propext, Classical.choice, Quot.sound |
| C109 | `Verif.Construct.C109_tens_like` | propext, Classical.choice, Quot.sound |
| C109 | `Verif.Construct.C109_tens_view` | propext, Classical.choice, Quot.sound |
| C109 | `Verif.Construct.C109_convert_partial` | propext, Classical.choice, Quot.sound |
| C109 | `Verif.Construct.C109_convert_dense_partial` | propext, Classical.choice, Quot.sound |
| C109 | `Verif.Construct.C109_convert_vec_partial` | propext, Classical.choice, Quot.sound |
| C109 | `Verif.Construct.C109_convert_violated` | propext |
| C11 | `Verif.C11_transpose` | propext, Classical.choice, Quot.sound |
| C11 | `Verif.C11_transpose_twice` | propext, Classical.choice, Quot.sound |
| C11 | `Verif.C11_transpose_from` | propext, Classical.choice, Quot.sound |
| C11 | `Verif.C11_offset_violated` | propext |
| C110 | `Verif.Stat.C110_jacobi_partial` | propext, Classical.choice, Quot.sound |
| C110 | `Verif.Stat.C110_sor_partial` | propext, Classical.choice, Quot.sound |
| C110 | `Verif.Stat.C110_formats` | propext, Classical.choice, Quot.sound |
| C110 | `Verif.Stat.C110_double_partial` | propext, Classical.choice, Quot.sound |
| C110 | `Verif.Stat.C110_sor_double_partial` | propext, Classical.choice, Quot.sound |
| C110 | `Verif.Stat.C110_returned_violated` | propext, Classical.choice, Quot.sound |
| C110 | `Verif.Stat.C110_overflow_violated` | propext, Classical.choice, Quot.sound |
| C111 | `Verif.HTCrs.C111_structure_partial` | propext, Classical.choice, Quot.sound |
| C111 | `Verif.HTCrs.C111_assign_partial` | propext, Classical.choice, Quot.sound |
| C111 | `Verif.HTCrs.C111_times_partial` | propext, Classical.choice, Quot.sound |
| C111 | `Verif.HTCrs.C111_assign_sizes` | none |
| C111 | `Verif.HTCrs.C111_set_ptr` | propext, Classical.choice, Quot.sound |
| C111 | `Verif.HTCrs.C111_set_ptr_fill` | propext, Classical.choice, Quot.sound |
| C111 | `Verif.HTCrs.C111_like_violated` | propext, Classical.choice, Quot.sound |
| C111 | `Verif.HTCrs.C111_arrays_violated` | propext, Classical.choice, Quot.sound |
| C111 | `Verif.HTCrs.C111_assign_violated` | propext, Classical.choice, Quot.sound |
| C112 | `Verif.Mm.C112_any_layout_partial` | propext, Classical.choice, Quot.sound |
| C112 | `Verif.Mm.C112_example` | propext, Classical.choice, Quot.sound |
| C112 | `Verif.Mm.C112_short_repeated` | propext, Classical.choice, Quot.sound |
| C112 | `Verif.Mm.C112_short_uninitialised` | propext, Classical.choice, Quot.sound |
| C112 | `Verif.Mm.C112_row_out_of_range_violated` | propext, Classical.choice, Quot.sound |
| C112 | `Verif.Mm.C112_row_zero_violated` | propext, Classical.choice, Quot.sound |
| C112 | `Verif.Mm.C112_blank_line_violated` | propext, Classical.choice, Quot.sound |
| C112 | `Verif.Mm.C112_letter_case_violated` | propext, Classical.choice, Quot.sound |
| C112 | `Verif.Mm.C112_late_comment_violated` | propext, Classical.choice, Quot.sound |
| C113 | `Verif.Incomplete.C113_ilu_solve_partial` | propext, Classical.choice, Quot.sound |
| C113 | `Verif.Incomplete.C113_ic_solve_partial` | propext, Classical.choice, Quot.sound |
| C113 | `Verif.Incomplete.C113_ilu_precond_partial` | propext, Classical.choice, Quot.sound |
| C113 | `Verif.Incomplete.C113_ic_precond_partial` | propext, Classical.choice, Quot.sound |
| C113 | `Verif.Incomplete.C113_cg_ic_partial` | propext, Classical.choice, Quot.sound |
| C113 | `Verif.Incomplete.C113_ilu_definite_partial` | propext, Classical.choice, Quot.sound |
| C113 | `Verif.Incomplete.C113_ic_definite_partial` | propext, Classical.choice, Quot.sound |
| C113 | `Verif.Incomplete.C113_cpu_refused` | propext, Quot.sound |
| C113 | `Verif.Incomplete.C113_stale_violated` | propext, Classical.choice, Quot.sound |
| C113 | `Verif.Incomplete.C113_zero_pivot_violated` | propext, Classical.choice, Quot.sound |
| C113 | `Verif.Incomplete.C113_side_violated` | propext, Classical.choice, Quot.sound |
| C114 | `Verif.Gen.C114_random_tensor_partial` | propext, Classical.choice, Quot.sound |
| C114 | `Verif.Gen.C114_reject` | propext, Quot.sound |
| C114 | `Verif.Gen.C114_zero_value_violated` | propext |
| C114 | `Verif.Gen.C114_empty_violated` | propext |
| C115 | `Verif.Lapack.C115_spectrum` | propext, Classical.choice, Quot.sound |
| C115 | `Verif.Lapack.C115_definite` | propext, Classical.choice, Quot.sound |
| C116 | `Verif.Direct.C116_lu_inplace_partial` | propext, Classical.choice, Quot.sound |
| C116 | `Verif.Direct.C116_lu_solve_partial` | propext, Classical.choice, Quot.sound |
| C116 | `Verif.Direct.C116_lu_same_partial` | propext, Classical.choice, Quot.sound |
| C116 | `Verif.Direct.C116_cholesky_inplace_partial` | propext, Classical.choice, Quot.sound |
| C116 | `Verif.Direct.C116_cholesky_solve_partial` | propext, Classical.choice, Quot.sound |
| C116 | `Verif.Direct.C116_cholesky_refused` | propext |
| C116 | `Verif.Direct.C116_dc_standard_partial` | propext, Classical.choice, Quot.sound |
| C116 | `Verif.Direct.C116_dc_generalized_partial` | propext, Classical.choice, Quot.sound |
| C116 | `Verif.Direct.C116_dc_itype` | none |
| C116 | `Verif.Direct.C116_qr_partial` | propext, Classical.choice, Quot.sound |
| C116 | `Verif.Direct.C116_cholesky_crs_partial` | propext, Classical.choice, Quot.sound |
| C116 | `Verif.Direct.C116_sparse_refused` | none |
| C116 | `Verif.Direct.C116_lu_matrix_on_device_violated` | propext, Classical.choice, Quot.sound |
| C116 | `Verif.Direct.C116_lu_vector_on_device_violated` | propext, Classical.choice, Quot.sound |
| C116 | `Verif.Direct.C116_cholesky_twice_violated` | propext, Classical.choice, Quot.sound |
| C116 | `Verif.Direct.C116_dc_ignores_device_violated` | none |
| C116 | `Verif.Direct.C116_dc_stale_violated` | propext, Classical.choice, Quot.sound |
| C116 | `Verif.Direct.C116_dc_second_violated` | propext, Quot.sound |
| C116 | `Verif.Direct.C116_sparse_always_success_violated` | propext, Quot.sound |
| C116 | `Verif.Direct.C116_sparse_singular_violated` | propext, Classical.choice, Quot.sound |
| C116 | `Verif.Direct.C116_sparse_host_violated` | propext |
| C117 | `Verif.Lobpcg.Dev.C117_standard_partial` | propext, Quot.sound |
| C117 | `Verif.Lobpcg.Dev.C117_generalized_partial` | propext, Quot.sound |
| C117 | `Verif.Lobpcg.Dev.C117_standard_host_violated` | propext, Quot.sound |
| C117 | `Verif.Lobpcg.Dev.C117_generalized_host_violated` | propext, Quot.sound |
| C117 | `Verif.Lobpcg.Dev.C117_device_vectors_violated` | propext, Quot.sound |
| C117 | `Verif.Lobpcg.Dev.C117_device_values_violated` | propext, Quot.sound |
| C118 | `Verif.MpiLobpcg.C118_one_process` | propext, Quot.sound |
| C118 | `Verif.MpiLobpcg.C118_one_process_generalized` | propext, Quot.sound |
| C118 | `Verif.MpiLobpcg.C118_lobpcg_return_partial` | propext, Classical.choice, Quot.sound |
| C118 | `Verif.MpiLobpcg.C118_lobpcg_generalized_return_partial` | propext, Classical.choice, Quot.sound |
| C118 | `Verif.MpiLobpcg.C118_hang_violated` | propext, Classical.choice, Quot.sound |
| C118 | `Verif.MpiLobpcg.C118_eigenvalues_violated` | propext, Classical.choice, Quot.sound |
| C119 | `Verif.Lobpcg.C119_lobpcg_standard_partial` | propext, Classical.choice, Quot.sound |
| C119 | `Verif.Lobpcg.C119_lobpcg_generalized_partial` | propext, Classical.choice, Quot.sound |
| C119 | `Verif.Lobpcg.C119_lobpcg_success_partial` | propext, Classical.choice, Quot.sound |
| C119 | `Verif.Lobpcg.C119_more_iterations_partial` | propext, Classical.choice, Quot.sound |
| C119 | `Verif.Lobpcg.C119_more_iterations_generalized_partial` | propext, Classical.choice, Quot.sound |
| C119 | `Verif.Lobpcg.C119_above_eigenvalues_partial` | propext, Classical.choice, Quot.sound |
| C119 | `Verif.Lobpcg.C119_above_eigenvalues_generalized_partial` | propext, Classical.choice, Quot.sound |
| C119 | `Verif.Lobpcg.C119_unit_vectors` | propext, Classical.choice, Quot.sound |
| C119 | `Verif.Lobpcg.C119_unit_precond` | propext, Classical.choice, Quot.sound |
| C119 | `Verif.Lobpcg.C119_no_precond_partial` | propext, Classical.choice, Quot.sound |
| C119 | `Verif.Lobpcg.C119_precond_partial` | propext, Classical.choice, Quot.sound |
| C119 | `Verif.Lobpcg.C119_jacobi_partial` | propext, Classical.choice, Quot.sound |
| C119 | `Verif.Lobpcg.C119_sor_partial` | propext, Classical.choice, Quot.sound |
| C119 | `Verif.Lobpcg.C119_not_without_error` | propext, Classical.choice, Quot.sound |
| C12 | `Verif.C12_transpose` | propext, Classical.choice, Quot.sound |
| C12 | `Verif.C12_transpose_from` | propext, Classical.choice, Quot.sound |
| C120 | `Verif.Lobpcg.C120_converges_partial` | propext, Classical.choice, Quot.sound |
| C120 | `Verif.Lobpcg.C120_converges_random_partial` | propext, Classical.choice, Quot.sound |
| C120 | `Verif.Lobpcg.C120_converges_always_partial` | propext, Classical.choice, Quot.sound |
| C120 | `Verif.Lobpcg.C120_crs_partial` | propext, Classical.choice, Quot.sound |
| C120 | `Verif.Lobpcg.C120_block_partial` | propext, Classical.choice, Quot.sound |
| C120 | `Verif.Lobpcg.C120_converges_precond_partial` | propext, Classical.choice, Quot.sound |
| C120 | `Verif.Lobpcg.C120_converges_jacobi_partial` | propext, Classical.choice, Quot.sound |
| C120 | `Verif.Lobpcg.C120_precond_partial` | propext, Classical.choice, Quot.sound |
| C120 | `Verif.Lobpcg.C120_jacobi_partial` | propext, Classical.choice, Quot.sound |
| C120 | `Verif.Lobpcg.C120_sor_partial` | propext, Classical.choice, Quot.sound |
| C120 | `Verif.Lobpcg.C120_sor_block_partial` | propext, Classical.choice, Quot.sound |
| C120 | `Verif.Lobpcg.C120_eigenvector_violated` | propext, Classical.choice, Quot.sound |
| C121 | `Verif.DataSize.C121_dense` | propext, Classical.choice, Quot.sound |
| C121 | `Verif.DataSize.C121_tensor_dense` | propext, Classical.choice, Quot.sound |
| C121 | `Verif.DataSize.C121_crs` | propext, Classical.choice, Quot.sound |
| C121 | `Verif.DataSize.C121_coo_partial` | propext, Classical.choice, Quot.sound |
| C121 | `Verif.DataSize.C121_coo_double_violated` | propext, Classical.choice, Quot.sound |
| C121 | `Verif.DataSize.C121_tensor_coo_partial` | propext, Classical.choice, Quot.sound |
| C121 | `Verif.DataSize.C121_tensor_coo_violated` | propext, Classical.choice, Quot.sound |
| C121 | `Verif.DataSize.C121_tensor_crs_partial` | propext, Classical.choice, Quot.sound |
| C121 | `Verif.DataSize.C121_tensor_crs_violated` | propext, Classical.choice, Quot.sound |
| C13 | `Verif.C13_vector` | propext, Quot.sound |
| C13 | `Verif.C13_dense_partial` | propext, Classical.choice, Quot.sound |
| C13 | `Verif.C13_dense_violated` | propext |
| C13 | `Verif.C13_coo_partial` | propext, Classical.choice, Quot.sound |
| C13 | `Verif.C13_coo_violated` | propext, Classical.choice, Quot.sound |
| C13 | `Verif.C13_coo_violated_witness` | propext |
| C13 | `Verif.C13_crs_self_violated` | propext, Classical.choice, Quot.sound |
| C13 | `Verif.C13_crs_violated` | propext |
| C13 | `Verif.C13_crs_partial` | propext, Quot.sound |
| C13 | `Verif.C13_crs_sound_partial` | propext, Classical.choice, Quot.sound |
| C14 | `Verif.C14_ignores_contents` | propext, Quot.sound |
| C14 | `Verif.C14_separates_violated` | propext, Quot.sound |
| C14 | `Verif.C14_schedule_violated` | propext, Quot.sound |
| C14 | `Verif.C14_same_structure_partial` | propext, Quot.sound |
| C14 | `Verif.C14_combine_order` | propext, Quot.sound |
| C15 | `Verif.C15_matadd_partial` | propext, Classical.choice, Quot.sound |
| C15 | `Verif.C15_matsub_partial` | propext, Classical.choice, Quot.sound |
| C15 | `Verif.C15_rejection_violated` | propext, Quot.sound |
| C15 | `Verif.C15_threads_violated` | propext, Quot.sound |
| C15 | `Verif.C15_dense` | propext, Classical.choice, Quot.sound |
| C16 | `Verif.C16_matvec_exact` | propext, Classical.choice, Quot.sound |
| C16 | `Verif.C16_matvec` | propext, Classical.choice, Quot.sound |
| C16 | `Verif.C16_matvec_T` | propext, Classical.choice, Quot.sound |
| C17 | `Verif.C17_ignores_scalars` | propext |
| C17 | `Verif.C17_crs_violated` | propext, Classical.choice, Quot.sound |
| C17 | `Verif.C17_crs_partial` | propext, Classical.choice, Quot.sound |
| C17 | `Verif.C17_dense` | propext, Classical.choice, Quot.sound |
| C18 | `Verif.C18_scalar_exact` | propext, Classical.choice, Quot.sound |
| C18 | `Verif.C18_scalar` | propext, Classical.choice, Quot.sound |
| C18 | `Verif.C18_avx_exact` | propext, Classical.choice, Quot.sound |
| C18 | `Verif.C18_avx` | propext, Classical.choice, Quot.sound |
| C18 | `Verif.C18_dense` | propext, Classical.choice, Quot.sound |
| C19 | `Verif.C19_coo_diag` | propext, Classical.choice, Quot.sound |
| C19 | `Verif.C19_coo_row` | propext, Classical.choice, Quot.sound |
| C19 | `Verif.C19_coo_col` | propext, Classical.choice, Quot.sound |
| C19 | `Verif.C19_coo_sizes` | propext, Quot.sound |
| C19 | `Verif.C19_crs_diag_partial` | propext, Classical.choice, Quot.sound |
| C19 | `Verif.C19_crs_col_partial` | propext, Classical.choice, Quot.sound |
| C19 | `Verif.C19_crs_row_partial` | propext, Classical.choice, Quot.sound |
| C19 | `Verif.C19_dense_partial` | propext, Quot.sound |
| C19 | `Verif.C19_crs_rectangular_violated` | propext, Quot.sound |
| C19 | `Verif.C19_crs_row_overflow` | propext, Quot.sound |
| C19 | `Verif.C19_crs_view_violated` | propext |
| C19 | `Verif.C19_dense_violated` | propext |
| C20 | `Verif.C20_dense_partial` | propext, Classical.choice, Quot.sound |
| C20 | `Verif.C20_dense_sizes` | propext, Quot.sound |
| C20 | `Verif.C20_dense_violated` | propext |
| C20 | `Verif.C20_crs` | propext, Classical.choice, Quot.sound |
| C20 | `Verif.C20_crs_sizes` | propext, Quot.sound |
| C21 | `Verif.C21_in_bounds` | propext, Classical.choice, Quot.sound |
| C21 | `Verif.C21_partial` | propext, Classical.choice, Quot.sound |
| C21 | `Verif.C21_violated` | propext, Classical.choice, Quot.sound |
| C22 | `Verif.C22_run` | propext, Classical.choice, Quot.sound |
| C22 | `Verif.C22_newWith` | propext, Classical.choice, Quot.sound |
| C23 | `Verif.C23_access` | propext, Quot.sound |
| C23 | `Verif.C23_vector_access` | propext, Quot.sound |
| C23 | `Verif.C23_nested` | propext, Quot.sound |
| C23 | `Verif.C23_vector_iterate` | propext, Classical.choice, Quot.sound |
| C23 | `Verif.C23_iterate_partial` | propext, Classical.choice, Quot.sound |
| C23 | `Verif.C23_iterate_violated` | propext, Classical.choice, Quot.sound |
| C23 | `Verif.C23_resize` | propext, Quot.sound |
| C23 | `Verif.C23_dense_access` | propext, Quot.sound |
| C23 | `Verif.C23_offset_target_violated` | propext |
| C23 | `Verif.C23_target_partial` | propext, Quot.sound |
| C24 | `Verif.Conc.C24_elementwise` | propext, Classical.choice, Quot.sound |
| C24 | `Verif.Conc.C24_sizes_checked` | propext, Quot.sound |
| C24 | `Verif.Conc.C24_times_size_violated` | propext |
| C24 | `Verif.Conc.C24_overlap_violated` | propext, Quot.sound |
| C25 | `Verif.C25_sum` | propext, Classical.choice, Quot.sound |
| C25 | `Verif.C25_nrm1` | propext, Classical.choice, Quot.sound |
| C25 | `Verif.C25_dot` | propext, Classical.choice, Quot.sound |
| C25 | `Verif.C25_dot_sizes` | propext |
| C25 | `Verif.C25_nrm2` | propext, Classical.choice, Quot.sound |
| C25 | `Verif.C25_max` | propext, Quot.sound |
| C25 | `Verif.C25_min` | propext, Quot.sound |
| C25 | `Verif.C25_max_empty_violated` | propext |
| C25 | `Verif.C25_min_empty_violated` | propext |
| C26 | `Verif.Gen.C26_at` | propext, Classical.choice, Quot.sound |
| C26 | `Verif.Gen.C26_eye` | propext, Classical.choice, Quot.sound |
| C26 | `Verif.Gen.C26_frank` | propext, Classical.choice, Quot.sound |
| C26 | `Verif.Gen.C26_asym_band` | propext, Classical.choice, Quot.sound |
| C26 | `Verif.Gen.C26_band_actual` | propext, Classical.choice, Quot.sound |
| C26 | `Verif.Gen.C26_band` | propext, Classical.choice, Quot.sound |
| C26 | `Verif.Gen.C26_band_zero_diag_violated` | propext, Classical.choice, Quot.sound |
| C26 | `Verif.Gen.C26_band_reject` | propext, Classical.choice, Quot.sound |
| C26 | `Verif.Gen.C26_tridiagonal` | propext, Classical.choice, Quot.sound |
| C26 | `Verif.Gen.C26_laplacian_1D` | propext, Classical.choice, Quot.sound |
| C26 | `Verif.Gen.C26_laplacian_2D` | propext, Classical.choice, Quot.sound |
| C26 | `Verif.Gen.C26_toeplitz_plus_hankel` | propext, Classical.choice, Quot.sound |
| C26 | `Verif.Gen.C26_small_abort` | propext, Classical.choice, Quot.sound |
| C27 | `Verif.Gen.C27_random_structure` | propext, Classical.choice, Quot.sound |
| C27 | `Verif.Gen.C27_can_finish` | propext, Classical.choice, Quot.sound |
| C27 | `Verif.Gen.C27_reject` | propext, Quot.sound |
| C27 | `Verif.Gen.C27_zero_value_violated` | propext |
| C27 | `Verif.Gen.C27_empty_violated` | propext |
| C28 | `Verif.Mm.C28_output` | propext, Classical.choice, Quot.sound |
| C28 | `Verif.Mm.C28_reread` | propext, Classical.choice, Quot.sound |
| C28 | `Verif.Mm.C28_roundtrip` | propext, Classical.choice, Quot.sound |
| C28 | `Verif.Mm.C28_comments` | propext, Classical.choice, Quot.sound |
| C28 | `Verif.Mm.C28_print_all` | propext, Quot.sound |
| C28 | `Verif.Mm.C28_no_columns_violated` | propext, Classical.choice, Quot.sound |
| C28 | `Verif.Mm.C28_nonfinite_violated` | propext, Classical.choice, Quot.sound |
| C28 | `Verif.Mm.C28_truncated_violated` | propext, Classical.choice, Quot.sound |
| C28 | `Verif.Mm.C28_truncated_newline_violated` | propext, Classical.choice, Quot.sound |
| C28 | `Verif.Mm.C28_comment_end_violated` | propext, Classical.choice, Quot.sound |
| C29 | `Verif.Solver.C29_status` | propext, Quot.sound |
| C29 | `Verif.Solver.C29_nonsquare` | propext |
| C29 | `Verif.Solver.C29_exact` | propext, Classical.choice, Quot.sound |
| C30 | `Verif.Solver.C30_status` | propext, Quot.sound |
| C30 | `Verif.Solver.C30_nonsquare` | propext |
| C30 | `Verif.Solver.C30_exact` | propext, Classical.choice, Quot.sound |
| C30 | `Verif.Solver.C30_exact_guess` | propext, Classical.choice, Quot.sound |
| C31 | `Verif.Solver.C31_fixed` | propext, Classical.choice, Quot.sound |
| C31 | `Verif.Solver.C31_exact_partial` | propext, Classical.choice, Quot.sound |
| C31 | `Verif.Solver.C31_nonsquare` | propext |
| C31 | `Verif.Solver.C31_reported_violated` | propext, Classical.choice, Quot.sound |
| C32 | `Verif.Solver.C32_lower_crs` | propext, Classical.choice, Quot.sound |
| C32 | `Verif.Solver.C32_lower_dense` | propext, Classical.choice, Quot.sound |
| C32 | `Verif.Solver.C32_fixed` | propext, Classical.choice, Quot.sound |
| C32 | `Verif.Solver.C32_iterates` | propext, Classical.choice, Quot.sound |
| C32 | `Verif.Solver.C32_exact_partial` | propext, Classical.choice, Quot.sound |
| C32 | `Verif.Solver.C32_precond` | propext, Classical.choice, Quot.sound |
| C32 | `Verif.Solver.C32_nonsquare` | propext |
| C32 | `Verif.Solver.C32_dense_precond_violated` | propext, Quot.sound |
| C32 | `Verif.Solver.C32_unsorted_violated` | propext, Classical.choice, Quot.sound |
| C32 | `Verif.Solver.C32_reported_violated` | propext, Classical.choice, Quot.sound |
| C33 | `Verif.Solver.C33_violated` | propext, Classical.choice, Quot.sound |
| C33 | `Verif.Solver.C33_crs_violated` | propext, Classical.choice, Quot.sound |
| C34 | `Verif.Solver.C34_residual_vanishes` | propext, Classical.choice, Quot.sound |
| C34 | `Verif.Solver.C34_terminates` | propext, Classical.choice, Quot.sound |
| C34 | `Verif.Solver.C34_crs` | propext, Classical.choice, Quot.sound |
| C34 | `Verif.Solver.C34_sor` | propext, Classical.choice, Quot.sound |
| C35 | `Verif.Log.C35_log` | propext, Quot.sound |
| C35 | `Verif.Log.C35_level` | propext, Quot.sound |
| C35 | `Verif.Log.C35_off` | propext |
| C35 | `Verif.Log.C35_iff` | propext, Classical.choice, Quot.sound |
| C35 | `Verif.Log.C35_functions` | propext, Quot.sound |
| C35 | `Verif.Log.C35_exception` | propext, Classical.choice, Quot.sound |
| C35 | `Verif.Log.C35_exceptions_violated` | propext, Quot.sound |
| C35 | `Verif.Log.C35_vector_equal_violated` | propext, Quot.sound |
| C35 | `Verif.Log.C35_same_size_violated` | propext |
| C35 | `Verif.Log.C35_same_size_partial` | propext |
| C35 | `Verif.Log.C35_linop_structure_violated` | propext, Quot.sound |
| C35 | `Verif.Log.C35_linop_copy_violated` | propext, Quot.sound |
| C35 | `Verif.Log.C35_throw_violated` | propext, Quot.sound |
| C35 | `Verif.Log.C35_threads_partial` | propext, Classical.choice, Quot.sound |
| C35 | `Verif.Log.C35_threads_lines_violated` | none |
| C36 | `Verif.C36_bijection` | propext, Classical.choice, Quot.sound |
| C36 | `Verif.C36_insert_at` | propext, Classical.choice, Quot.sound |
| C36 | `Verif.C36_new` | propext, Classical.choice, Quot.sound |
| C36 | `Verif.C36_rank` | propext |
| C36 | `Verif.C36_range_violated` | propext, Quot.sound |
| C36 | `Verif.C36_no_overrun` | propext, Quot.sound |
| C37 | `Verif.C37_insert_at` | propext, Classical.choice, Quot.sound |
| C37 | `Verif.C37_sort_partial` | propext, Classical.choice, Quot.sound |
| C37 | `Verif.C37_sort_merge_partial` | propext, Classical.choice, Quot.sound |
| C37 | `Verif.C37_of_dense_partial` | propext, Classical.choice, Quot.sound |
| C37 | `Verif.C37_to_dense` | propext, Classical.choice, Quot.sound |
| C37 | `Verif.C37_round_trip` | propext, Classical.choice, Quot.sound |
| C37 | `Verif.C37_diag` | propext, Classical.choice, Quot.sound |
| C37 | `Verif.C37_sort_violated` | propext, Quot.sound |
| C37 | `Verif.C37_sort_empty_violated` | propext |
| C37 | `Verif.C37_unchecked_violated` | propext |
| C37 | `Verif.C37_of_dense_violated` | propext |
| C38 | `Verif.C38_reshape` | propext, Classical.choice, Quot.sound |
| C38 | `Verif.C38_rejects` | propext, Classical.choice, Quot.sound |
| C38 | `Verif.C38_rejected_violated` | propext |
| C39 | `Verif.C39_tensmul` | propext, Classical.choice, Quot.sound |
| C39 | `Verif.C39_tensmat` | propext, Classical.choice, Quot.sound |
| C39 | `Verif.C39_mattens` | propext, Classical.choice, Quot.sound |
| C39 | `Verif.C39_tensvec` | propext, Classical.choice, Quot.sound |
| C39 | `Verif.C39_sizes` | propext, Classical.choice, Quot.sound |
| C39 | `Verif.C39_empty_violated` | propext, Classical.choice, Quot.sound |
| C39 | `Verif.C39_shape_violated` | propext |
| C40 | `Verif.LinOp.C40_convert_crs` | propext, Classical.choice, Quot.sound |
| C40 | `Verif.LinOp.C40_convert_dense` | propext, Classical.choice, Quot.sound |
| C40 | `Verif.LinOp.C40_convert_coo` | propext, Classical.choice, Quot.sound |
| C40 | `Verif.LinOp.C40_add` | propext, Classical.choice, Quot.sound |
| C40 | `Verif.LinOp.C40_sub` | propext, Classical.choice, Quot.sound |
| C40 | `Verif.LinOp.C40_mul` | propext, Classical.choice, Quot.sound |
| C40 | `Verif.LinOp.C40_scalar` | propext, Classical.choice, Quot.sound |
| C40 | `Verif.LinOp.C40_add_live` | propext, Classical.choice, Quot.sound |
| C40 | `Verif.LinOp.C40_sub_live` | propext, Classical.choice, Quot.sound |
| C40 | `Verif.LinOp.C40_mul_live` | propext, Classical.choice, Quot.sound |
| C40 | `Verif.LinOp.C40_scalar_live` | propext, Classical.choice, Quot.sound |
| C40 | `Verif.LinOp.C40_copy` | propext, Classical.choice, Quot.sound |
| C40 | `Verif.LinOp.C40_assign` | propext, Classical.choice, Quot.sound |
| C40 | `Verif.LinOp.C40_matmul_crs` | propext, Classical.choice, Quot.sound |
| C40 | `Verif.LinOp.C40_matmul_dense` | propext, Classical.choice, Quot.sound |
| C40 | `Verif.LinOp.C40_matmul_coo` | propext, Classical.choice, Quot.sound |
| C40 | `Verif.LinOp.C40_to_dense` | propext, Classical.choice, Quot.sound |
| C40 | `Verif.LinOp.C40_to_dense_uninit` | propext, Classical.choice, Quot.sound |
| C41 | `Verif.LinDiag.C41_vector` | propext, Classical.choice, Quot.sound |
| C41 | `Verif.LinDiag.C41_reject` | propext, Quot.sound |
| C42 | `Verif.Solver.C42_constant` | none |
| C42 | `Verif.Solver.C42_violated` | none |
| C43 | `Verif.C43_dense_max` | propext, Classical.choice, Quot.sound |
| C43 | `Verif.C43_dense_min` | propext, Classical.choice, Quot.sound |
| C43 | `Verif.C43_view_partial` | propext, Quot.sound |
| C43 | `Verif.C43_crs_max_partial` | propext, Classical.choice, Quot.sound |
| C43 | `Verif.C43_view_violated` | propext |
| C43 | `Verif.C43_crs_violated` | propext |
| C44 | `Verif.Conc.C44_alo` | propext, Classical.choice, Quot.sound |
| C45 | `Verif.C45_dense` | propext, Classical.choice, Quot.sound |
| C45 | `Verif.C45_crs` | propext, Classical.choice, Quot.sound |
| C45 | `Verif.C45_dense_sizes` | propext, Quot.sound |
| C45 | `Verif.C45_line_bound_violated` | propext, Quot.sound |
| C46 | `Verif.Shared.C46_move` | propext, Quot.sound |
| C46 | `Verif.Shared.C46_move_shape` | propext, Quot.sound |
| C46 | `Verif.Shared.C46_history` | propext, Quot.sound |
| C46 | `Verif.Shared.C46_write` | propext, Quot.sound |
| C46 | `Verif.Shared.C46_alias_resize` | propext, Classical.choice, Quot.sound |
| C46 | `Verif.Shared.C46_outlives` | propext, Quot.sound |
| C46 | `Verif.Shared.C46_source_growth_violated` | propext |
| C47 | `Verif.C47_convert` | propext, Classical.choice, Quot.sound |
| C47 | `Verif.C47_to_coo` | propext, Classical.choice, Quot.sound |
| C47 | `Verif.C47_round_trip` | propext, Classical.choice, Quot.sound |
| C47 | `Verif.C47_reuse_violated` | propext |
| C47 | `Verif.C47_reuse_elements_violated` | propext |
| C48 | `Verif.Mpi.C48_fifo` | propext, Quot.sound |
| C48 | `Verif.Mpi.C48_deliver` | propext, Quot.sound |
| C48 | `Verif.Mpi.C48_exchange` | propext, Quot.sound |
| C48 | `Verif.Mpi.C48_waitall` | propext, Quot.sound |
| C48 | `Verif.Mpi.C48_bcast` | propext, Quot.sound |
| C48 | `Verif.Mpi.C48_recv_scalar_violated` | propext |
| C48 | `Verif.Mpi.C48_async_scalar_violated` | propext, Quot.sound |
| C48 | `Verif.Mpi.C48_isend_vector_violated` | propext, Quot.sound |
| C48 | `Verif.Mpi.C48_empty_violated` | propext, Quot.sound |
| C48 | `Verif.Mpi.C48_scatter_violated` | propext, Quot.sound |
| C48 | `Verif.Mpi.C48_gather_violated` | propext, Quot.sound |
| C48 | `Verif.Mpi.C48_initialized_violated` | none |
| C48 | `Verif.Mpi.C48_allreduce_violated` | none |
| C49 | `Verif.C49_transpose_self_violated` | propext |
| C49 | `Verif.C49_transpose_self_partial` | propext, Classical.choice, Quot.sound |
| C50 | `Verif.C50_copy` | propext, Classical.choice, Quot.sound |
| C50 | `Verif.C50_copy_equal_violated` | propext, Classical.choice, Quot.sound |
| C51 | `Verif.C51_tensvec` | propext, Classical.choice, Quot.sound |
| C51 | `Verif.C51_tensmat` | propext, Classical.choice, Quot.sound |
| C51 | `Verif.C51_tensmul` | propext, Classical.choice, Quot.sound |
| C51 | `Verif.C51_times` | propext, Classical.choice, Quot.sound |
| C51 | `Verif.C51_times_row` | propext, Classical.choice, Quot.sound |
| C51 | `Verif.C51_tensvec_scalars_violated` | propext, Quot.sound |
| C52 | `Verif.Shared.C52_view` | propext, Classical.choice, Quot.sound |
| C52 | `Verif.Shared.C52_view_write` | propext, Classical.choice, Quot.sound |
| C52 | `Verif.Shared.C52_resize_violated` | propext, Quot.sound |
| C52 | `Verif.Shared.C52_offset_violated` | propext |
| C53 | `Verif.Solver.C53_violated` | propext, Classical.choice, Quot.sound |
| C53 | `Verif.Solver.C53_identity_violated` | propext, Classical.choice, Quot.sound |
| C54 | `Verif.Solver.C54_jacobi_converges` | propext, Classical.choice, Quot.sound |
| C54 | `Verif.Solver.C54_rate` | propext, Classical.choice, Quot.sound |
| C54 | `Verif.Solver.jacobi_contract` | propext, Classical.choice, Quot.sound |
| C55 | `Verif.Solver.C55_jacobi_violated` | propext, Classical.choice, Quot.sound |
| C55 | `Verif.Solver.C55_sor_violated` | propext, Classical.choice, Quot.sound |
| C56 | `Verif.Solver.C56_violated` | propext, Classical.choice, Quot.sound |
| C56 | `Verif.Solver.C56_fixed` | propext, Classical.choice, Quot.sound |
| C57 | `Verif.Solver.C57_spd` | propext, Classical.choice, Quot.sound |
| C57 | `Verif.Solver.C57_dominant` | propext, Classical.choice, Quot.sound |
| C57 | `Verif.Solver.C57_rate` | propext, Classical.choice, Quot.sound |
| C57 | `Verif.Solver.sor_energy` | propext, Classical.choice, Quot.sound |
| C58 | `Verif.Solver.C58_violated` | propext |
| C59 | `Verif.Solver.C59_residual` | propext, Classical.choice, Quot.sound |
| C59 | `Verif.Solver.C59_rectangular_violated` | propext, Quot.sound |
| C59 | `Verif.Solver.Dev.C59_device_partial` | propext, Classical.choice, Quot.sound |
| C59 | `Verif.Solver.Dev.C59_gpu_host_violated` | propext, Classical.choice, Quot.sound |
| C60 | `Verif.Gen.C60_tridiagonal` | propext, Classical.choice, Quot.sound |
| C60 | `Verif.Gen.C60_laplacian_1D` | propext, Classical.choice, Quot.sound |
| C60 | `Verif.Gen.C60_toeplitz_plus_hankel_partial` | propext, Classical.choice, Quot.sound |
| C60 | `Verif.Gen.C60_toeplitz_plus_hankel_order_violated` | propext, Classical.choice, Quot.sound |
| C60 | `Verif.Gen.C60_frank_spectrum` | propext, Classical.choice, Quot.sound |
| C60 | `Verif.Gen.C60_frank_partial` | propext, Classical.choice, Quot.sound |
| C60 | `Verif.Gen.C60_frank_violated` | propext, Classical.choice, Quot.sound |
| C61 | `Verif.LinOp.C61_inplace_violated` | propext, Quot.sound |
| C61 | `Verif.LinOp.C61_inplace_scalar_violated` | propext, Quot.sound |
| C61 | `Verif.LinOp.C61_temporary_scalar_violated` | propext, Classical.choice, Quot.sound |
| C61 | `Verif.LinOp.C61_copy_dangling_violated` | propext, Quot.sound |
| C61 | `Verif.LinOp.C61_copy_matmul_violated` | propext, Quot.sound |
| C61 | `Verif.LinOp.C61_stale_matmul_violated` | propext, Classical.choice, Quot.sound |
| C61 | `Verif.LinOp.C61_stale_rmatvec_violated` | propext, Quot.sound |
| C61 | `Verif.LinOp.C61_size_violated` | propext, Classical.choice, Quot.sound |
| C62 | `Verif.LinDiag.C62_view_partial` | propext, Classical.choice, Quot.sound |
| C62 | `Verif.LinDiag.C62_view_offset_violated` | propext, Classical.choice, Quot.sound |
| C62 | `Verif.LinDiag.C62_view_race_violated` | propext, Classical.choice, Quot.sound |
| C63 | `Verif.Mpi.C63_sum` | propext, Classical.choice, Quot.sound |
| C63 | `Verif.Mpi.C63_nrm1` | propext, Classical.choice, Quot.sound |
| C63 | `Verif.Mpi.C63_dot` | propext, Classical.choice, Quot.sound |
| C63 | `Verif.Mpi.C63_nrm2` | propext, Classical.choice, Quot.sound |
| C64 | `Verif.Dispatch.C64_elementwise_api` | propext, Classical.choice, Quot.sound |
| C65 | `Verif.Dispatch.C65_shapes_checked` | propext, Quot.sound |
| C65 | `Verif.Dispatch.C65_structure_checked_partial` | propext, Quot.sound |
| C65 | `Verif.Dispatch.C65_structure_violated` | propext, Quot.sound |
| C65 | `Verif.Conc.C24_times_size_violated` | propext |
| C66 | `Verif.Dispatch.C66_binary` | propext, Quot.sound |
| C66 | `Verif.Dispatch.C66_scalar` | propext, Quot.sound |
| C66 | `Verif.Dispatch.C66_unary` | propext, Quot.sound |
| C66 | `Verif.Dispatch.C66_alo` | propext, Quot.sound |
| C67 | `Verif.Lapack.C67_lu_solve` | propext, Classical.choice, Quot.sound |
| C67 | `Verif.Lapack.C67_lu_inplace` | propext, Classical.choice, Quot.sound |
| C67 | `Verif.Lapack.C67_short_rhs_ub` | propext, Classical.choice, Quot.sound |
| C67 | `Verif.Lapack.C67_empty_violated` | propext, Classical.choice, Quot.sound |
| C67 | `Verif.Lapack.C67_rectangular_violated` | propext, Classical.choice, Quot.sound |
| C67 | `Verif.Lapack.exists_lib` | propext, Classical.choice, Quot.sound |
| C68 | `Verif.Lapack.C68_cholesky_solve` | propext, Classical.choice, Quot.sound |
| C68 | `Verif.Lapack.C68_cholesky_inplace` | propext, Classical.choice, Quot.sound |
| C68 | `Verif.Lapack.C68_cholesky_lower` | propext, Classical.choice, Quot.sound |
| C68 | `Verif.Lapack.C68_nonsymmetric_violated` | propext, Classical.choice, Quot.sound |
| C68 | `Verif.Lapack.exists_lib` | propext, Classical.choice, Quot.sound |
| C69 | `Verif.Lapack.C69_dc_standard` | propext, Classical.choice, Quot.sound |
| C69 | `Verif.Lapack.C69_dc_generalized` | propext, Classical.choice, Quot.sound |
| C69 | `Verif.Lapack.C69_other_lib_violated` | propext, Quot.sound |
| C69 | `Verif.Lapack.C69_short_lambda_ub` | propext, Quot.sound |
| C69 | `Verif.Lapack.exists_lib_real` | propext, Classical.choice, Quot.sound |
| C70 | `Verif.Lobpcg.C70_lobpcg_standard_success` | propext, Classical.choice, Quot.sound |
| C70 | `Verif.Lobpcg.C70_lobpcg_no_precond` | propext, Classical.choice, Quot.sound |
| C71 | `Verif.Lobpcg.C71_lobpcg_generalized_violated` | propext, Classical.choice, Quot.sound |
| C71 | `Verif.Lobpcg.C71_lobpcg_generalized_partial` | propext, Classical.choice, Quot.sound |
| C71 | `Verif.Lobpcg.C71_lobpcg_identity_partial` | propext, Classical.choice, Quot.sound |
| C72 | `Verif.Lobpcg.C72_lobpcg_termination_violated` | propext, Classical.choice, Quot.sound |
| C72 | `Verif.Lobpcg.C72_lobpcg_terminates_partial` | propext, Quot.sound |
| C72 | `Verif.MpiLobpcg.C72_lobpcg_total_partial` | propext, Classical.choice, Quot.sound |
| C72 | `Verif.MpiLobpcg.C72_lobpcg_generalized_total_partial` | propext, Classical.choice, Quot.sound |
| C73 | `Verif.Shared.C73_fill` | propext, Quot.sound |
| C73 | `Verif.Shared.C73_fill_sparse` | propext, Quot.sound |
| C73 | `Verif.Shared.C73_set_last_violated` | propext |
| C74 | `Verif.Shared.C74_assign_partial` | propext, Classical.choice, Quot.sound |
| C74 | `Verif.Shared.C74_assign_sizes` | propext, Quot.sound |
| C74 | `Verif.Shared.C74_view_offset_violated` | propext, Classical.choice, Quot.sound |
| C74 | `Verif.Shared.C74_view_offset_ub` | propext, Quot.sound |
| C75 | `Verif.Shared.C75_iterate_object` | propext, Classical.choice, Quot.sound |
| C75 | `Verif.Shared.C75_iterate_view_partial` | propext, Classical.choice, Quot.sound |
| C75 | `Verif.Shared.C75_iterate_view_violated` | propext, Classical.choice, Quot.sound |
| C76 | `Verif.Shared.C76_access_partial` | propext, Classical.choice, Quot.sound |
| C76 | `Verif.Shared.C76_insert_partial` | propext, Classical.choice, Quot.sound |
| C76 | `Verif.Shared.C76_at_range_violated` | propext, Quot.sound |
| C76 | `Verif.Shared.C76_nested_violated` | propext, Classical.choice, Quot.sound |
| C76 | `Verif.Shared.C76_moved_violated` | propext, Classical.choice, Quot.sound |
| C77 | `Verif.Shared.C77_resize_partial` | propext, Classical.choice, Quot.sound |
| C77 | `Verif.Shared.C77_nested_violated` | propext, Quot.sound |
| C77 | `Verif.Shared.C77_assign_std_partial` | propext, Classical.choice, Quot.sound |
| C78 | `Verif.C78_of_arrays` | propext, Quot.sound |
| C78 | `Verif.C78_of_arrays_ub` | propext, Quot.sound |
| C78 | `Verif.C78_of_arrays_origin` | propext, Quot.sound |
| C78 | `Verif.C78_copy` | propext, Quot.sound |
| C78 | `Verif.C78_copy_with` | propext, Classical.choice, Quot.sound |
| C78 | `Verif.C78_set_ptr` | propext, Classical.choice, Quot.sound |
| C78 | `Verif.C78_set_ptr_violated` | propext |
| C78 | `Verif.C78_assign_partial` | propext, Classical.choice, Quot.sound |
| C78 | `Verif.C78_assign_violated` | propext, Classical.choice, Quot.sound |
| C78 | `Verif.C78_assign_ub` | propext, Classical.choice, Quot.sound |
| C79 | `Verif.C79_of_arrays` | propext, Quot.sound |
| C79 | `Verif.C79_of_arrays_origin` | propext, Quot.sound |
| C79 | `Verif.C79_set_ptr` | propext, Quot.sound |
| C79 | `Verif.C79_assign_partial` | propext, Quot.sound |
| C79 | `Verif.C79_assign_sizes` | none |
| C79 | `Verif.C79_assign_violated` | propext, Quot.sound |
| C80 | `Verif.C80_of_arrays` | propext, Quot.sound |
| C80 | `Verif.C80_copy` | propext, Classical.choice, Quot.sound |
| C80 | `Verif.C80_copy_with` | propext, Classical.choice, Quot.sound |
| C80 | `Verif.C80_set_ptr` | propext, Quot.sound |
| C80 | `Verif.C80_equal_partial` | propext, Classical.choice, Quot.sound |
| C80 | `Verif.C80_equal_violated` | propext, Classical.choice, Quot.sound |
| C81 | `Verif.Prog.C81_example_partial` | propext, Classical.choice, Quot.sound |
| C81 | `Verif.Prog.C81_example_sorted` | propext, Classical.choice, Quot.sound |
| C81 | `Verif.Prog.C81_column_order_violated` | propext, Classical.choice, Quot.sound |
| C82 | `Verif.Prog.C82_tridiagonal` | propext, Classical.choice, Quot.sound |
| C82 | `Verif.Prog.C82_laplacian_1D` | propext, Classical.choice, Quot.sound |
| C82 | `Verif.Prog.C82_laplacian_2D` | propext, Classical.choice, Quot.sound |
| C82 | `Verif.Prog.C82_sor_tridiagonal` | propext, Classical.choice, Quot.sound |
| C82 | `Verif.Prog.C82_sor_laplacian_2D` | propext, Classical.choice, Quot.sound |
| C82 | `Verif.Prog.C82_tridiagonal_rate` | propext, Classical.choice, Quot.sound |
| C83 | `Verif.Dev.C83_portable` | propext, Classical.choice, Quot.sound |
| C83 | `Verif.Dev.C83_received` | propext, Classical.choice, Quot.sound |
| C83 | `Verif.Dev.C83_send_twice_loses` | none |
| C83 | `Verif.Dev.C83_free_loses` | none |
| C83 | `Verif.Dev.C83_mixed_aborts` | none |
| C84 | `Verif.Dev.C84_flags` | propext, Classical.choice, Quot.sound |
| C84 | `Verif.Dev.C84_copy` | propext, Classical.choice, Quot.sound |
| C84 | `Verif.Dev.C84_destroy` | propext, Classical.choice, Quot.sound |
| C84 | `Verif.Dev.C84_moved_known` | propext |
| C84 | `Verif.Dev.C84_part_recv_loses` | none |
| C84 | `Verif.Dev.C84_part_send_ub` | none |
| C84 | `Verif.Dev.C84_owner_destroyed_loses` | none |
| C84 | `Verif.Dev.C84_moved_into_leaks` | none |
| C85 | `Verif.Shared.C85_dims` | propext, Classical.choice, Quot.sound |
| C85 | `Verif.Shared.C85_dims_throw` | propext, Classical.choice, Quot.sound |
| C85 | `Verif.Shared.C85_dims_zero_ub` | none |
| C85 | `Verif.Shared.C85_move_dims` | propext, Classical.choice, Quot.sound |
| C85 | `Verif.Shared.C85_move_dims_throw` | propext, Classical.choice, Quot.sound |
| C85 | `Verif.Shared.C85_move_flat` | propext, Classical.choice, Quot.sound |
| C85 | `Verif.Shared.C85_reshape` | propext, Quot.sound |
| C85 | `Verif.Shared.C85_neg` | propext, Classical.choice, Quot.sound |
| C85 | `Verif.Shared.C85_view_move_partial` | propext, Classical.choice, Quot.sound |
| C85 | `Verif.Shared.C85_view_move_violated` | propext, Classical.choice, Quot.sound |
| C85 | `Verif.Shared.C85_view_move_abort` | propext, Quot.sound |
| C85 | `Verif.Shared.C85_view_move_dims_violated` | propext, Quot.sound |
| C86 | `Verif.C86_rows` | propext, Classical.choice, Quot.sound |
| C86 | `Verif.C86_cols` | propext, Classical.choice, Quot.sound |
| C86 | `Verif.C86_row` | propext, Classical.choice, Quot.sound |
| C86 | `Verif.C86_col` | propext, Classical.choice, Quot.sound |
| C86 | `Verif.C86_sizes` | propext |
| C86 | `Verif.C86_line_bound_violated` | propext |
| C86 | `Verif.C86_empty_violated` | propext, Classical.choice, Quot.sound |
| C87 | `Verif.Product.C87_product` | propext, Classical.choice, Quot.sound |
| C87 | `Verif.Product.C87_scaled` | propext, Classical.choice, Quot.sound |
| C87 | `Verif.Product.C87_scalars_dropped_partial` | propext, Classical.choice, Quot.sound |
| C87 | `Verif.Product.C87_transposed` | propext, Classical.choice, Quot.sound |
| C87 | `Verif.Product.C87_transposed_scaled` | propext, Classical.choice, Quot.sound |
| C87 | `Verif.Product.C87_complete` | propext, Classical.choice, Quot.sound |
| C88 | `Verif.Reduction.C88_sum` | propext, Classical.choice, Quot.sound |
| C88 | `Verif.Reduction.C88_abs` | propext, Classical.choice, Quot.sound |
| C88 | `Verif.Reduction.C88_nrm2` | propext, Classical.choice, Quot.sound |
| C88 | `Verif.Reduction.C88_dot` | propext, Classical.choice, Quot.sound |
| C88 | `Verif.Reduction.C88_dot_sizes` | propext, Classical.choice, Quot.sound |
| C88 | `Verif.Reduction.C88_max` | propext, Classical.choice, Quot.sound |
| C88 | `Verif.Reduction.C88_min` | propext, Classical.choice, Quot.sound |
| C88 | `Verif.Reduction.C88_clamped_partial` | propext, Classical.choice, Quot.sound |
| C88 | `Verif.Reduction.C88_max_violated` | propext, Classical.choice, Quot.sound |
| C88 | `Verif.Reduction.C88_complete` | none |
| C89 | `Verif.MyCg.C89_same` | propext, Classical.choice, Quot.sound |
| C89 | `Verif.MyCg.C89_main` | propext, Classical.choice, Quot.sound |
| C89 | `Verif.MyCg.C89_exact_start_violated` | propext, Classical.choice, Quot.sound |
| C90 | `Verif.C90_vector` | propext, Classical.choice, Quot.sound |
| C90 | `Verif.C90_view1D` | propext, Classical.choice, Quot.sound |
| C90 | `Verif.C90_coo` | propext, Classical.choice, Quot.sound |
| C90 | `Verif.C90_crs` | propext, Classical.choice, Quot.sound |
| C90 | `Verif.C90_dense` | propext, Classical.choice, Quot.sound |
| C90 | `Verif.C90_view_dense` | propext, Classical.choice, Quot.sound |
| C90 | `Verif.C90_tensor` | propext, Classical.choice, Quot.sound |
| C90 | `Verif.C90_view_tensor` | propext, Classical.choice, Quot.sound |
| C90 | `Verif.C90_tcoo` | propext, Classical.choice, Quot.sound |
| C90 | `Verif.C90_tcrs` | propext, Classical.choice, Quot.sound |
| C90 | `Verif.C90_offset_violated` | propext |
| C90 | `Verif.C90_rank_violated` | propext |
| C91 | `Verif.Lapack.C91_spectrum` | propext, Classical.choice, Quot.sound |
| C91 | `Verif.Lapack.C91_example` | propext, Classical.choice, Quot.sound |
| C91 | `Verif.Lapack.C91_failure_violated` | propext, Classical.choice, Quot.sound |
| C92 | `Verif.Prog.C92_lu` | propext, Classical.choice, Quot.sound |
| C92 | `Verif.Prog.C92_bicg_partial` | propext, Classical.choice, Quot.sound |
| C92 | `Verif.Prog.C92_singular_violated` | propext, Classical.choice, Quot.sound |
| C93 | `Verif.Solver.C93_half_step` | propext, Classical.choice, Quot.sound |
| C93 | `Verif.Solver.C93_outcome_partial` | propext, Classical.choice, Quot.sound |
| C93 | `Verif.Solver.C93_violated` | propext, Classical.choice, Quot.sound |
| C94 | `Verif.LineOp.C94_rows` | propext, Classical.choice, Quot.sound |
| C94 | `Verif.LineOp.C94_cols` | propext, Classical.choice, Quot.sound |
| C94 | `Verif.LineOp.C94_row` | propext, Classical.choice, Quot.sound |
| C94 | `Verif.LineOp.C94_col` | propext, Classical.choice, Quot.sound |
| C94 | `Verif.LineOp.C94_complete` | propext, Quot.sound |
| C95 | `Verif.Product.C95_products` | propext, Quot.sound |
| C95 | `Verif.Product.C95_products_violated` | propext, Quot.sound |
| C95 | `Verif.LineOp.C95_lines` | propext, Quot.sound |
| C95 | `Verif.LineOp.C95_lines_violated` | propext, Quot.sound |
| C95 | `Verif.Reduction.C95_reductions` | propext, Quot.sound |
| C95 | `Verif.Dispatch.C95_elementwise` | propext, Quot.sound |
| C95 | `Verif.Dispatch.C95_elementwise_violated` | propext, Quot.sound |
| C96 | `Verif.Diag.C96_dense_partial` | propext, Classical.choice, Quot.sound |
| C96 | `Verif.Diag.C96_crs` | propext, Classical.choice, Quot.sound |
| C96 | `Verif.Diag.C96_tensor_partial` | propext, Classical.choice, Quot.sound |
| C96 | `Verif.Diag.C96_complete` | propext, Quot.sound |
| C96 | `Verif.C20_dense_violated` | propext |
| C96 | `Verif.C21_violated` | propext, Classical.choice, Quot.sound |
| C97 | `Verif.Solver.C97_same_cg` | propext, Quot.sound |
| C97 | `Verif.Solver.C97_same_bicg` | propext, Quot.sound |
| C97 | `Verif.Solver.C97_same_jacobi` | propext, Quot.sound |
| C97 | `Verif.Solver.C97_same_sor` | propext, Quot.sound |
| C97 | `Verif.Solver.C97_cg` | propext, Quot.sound |
| C97 | `Verif.Solver.C97_bicg` | propext, Quot.sound |
| C97 | `Verif.Solver.C97_sor` | propext, Quot.sound |
| C97 | `Verif.Solver.C97_jacobi_partial` | propext, Quot.sound |
| C97 | `Verif.Solver.C97_every_line_cg` | propext, Classical.choice, Quot.sound |
| C97 | `Verif.Solver.C97_every_line_bicg` | propext, Quot.sound |
| C97 | `Verif.Solver.C97_every_line_jacobi` | propext, Quot.sound |
| C97 | `Verif.Solver.C97_every_line_sor` | propext, Quot.sound |
| C97 | `Verif.Solver.C97_exact_cg` | propext, Classical.choice, Quot.sound |
| C97 | `Verif.Solver.C97_silent` | propext, Quot.sound |
| C97 | `Verif.Solver.C97_jacobi_last_violated` | propext, Classical.choice, Quot.sound |
| C98 | `Verif.Solver.C98_plain` | propext, Quot.sound |
| C98 | `Verif.Solver.C98_precond` | propext, Classical.choice, Quot.sound |
| C98 | `Verif.Solver.C98_safe` | propext, Quot.sound |
| C98 | `Verif.Solver.C98_destination` | propext, Quot.sound |
| C98 | `Verif.Solver.C98_crs` | propext, Classical.choice, Quot.sound |
| C98 | `Verif.Solver.C98_dense` | propext, Quot.sound |
| C98 | `Verif.Solver.C98_filename_violated` | propext, Classical.choice, Quot.sound |
| C98 | `Verif.Solver.C98_copy_violated` | propext, Classical.choice, Quot.sound |
| C98 | `Verif.Solver.C98_stale_violated` | propext, Classical.choice, Quot.sound |
| C98 | `Verif.Solver.C98_dangling_violated` | propext, Classical.choice, Quot.sound |
| C99 | `Verif.Machine.C99_insert` | propext, Quot.sound |
| C99 | `Verif.Machine.C99_at` | propext, Classical.choice, Quot.sound |
| C99 | `Verif.Machine.C99_sort` | propext, Classical.choice, Quot.sound |
| C99 | `Verif.Machine.C99_convert_crs` | propext, Classical.choice, Quot.sound |
| C99 | `Verif.Machine.C99_convert_coo` | propext, Quot.sound |
| C99 | `Verif.Machine.C99_matvec` | propext, Quot.sound |
| C99 | `Verif.Machine.C99_transpose` | propext, Quot.sound |
| C99 | `Verif.Machine.C99_program` | propext, Classical.choice, Quot.sound |
| C99 | `Verif.Machine.C99_laplacian` | propext, Classical.choice, Quot.sound |
| C99 | `Verif.Machine.C99_alias_violated` | propext |
| C99 | `Verif.Machine.C99_convert_violated` | propext, Classical.choice, Quot.sound |
| C99 | `Verif.Machine.C99_laplacian_violated` | propext, Quot.sound |
| C99 | `Verif.Machine.C99_laplacian_counter_violated` | propext, Classical.choice, Quot.sound |
