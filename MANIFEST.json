{
 "claims": [
  {
   "property": "C01",
   "status": "proved",
   "theorems": [
    "OpenMps.C01_iteration_enumerates_surrounding_blocks",
    "OpenMps.C01_each_number_once"
   ],
   "note": ""
  },
  {
   "property": "C02",
   "status": "proved",
   "theorems": [
    "OpenMps.C02_near_particle_is_yielded"
   ],
   "note": ""
  },
  {
   "property": "C03",
   "status": "proved",
   "theorems": [
    "OpenMps.C03_store_false_iff_outside",
    "OpenMps.C03_store_true_adds_one"
   ],
   "note": ""
  },
  {
   "property": "C04",
   "status": "proved",
   "theorems": [
    "OpenMps.C04_throws_iff_full",
    "OpenMps.C04_slot_write_in_bounds",
    "OpenMps.C04_capacity"
   ],
   "note": ""
  },
  {
   "property": "C05",
   "status": "proved",
   "theorems": [
    "OpenMps.C05_clear_empties",
    "OpenMps.C05_clear_behaves_like_new",
    "OpenMps.C05_two_dimensional",
    "OpenMps.C05_clear3d_incomplete",
    "OpenMps.C05_clear3d_out_of_bounds"
   ],
   "note": "2-D Clear proved complete; the 3-D Clear of the pinned commit is proved defective when the grid is not cubic (C05_clear3d_*)."
  },
  {
   "property": "C06",
   "status": "proved",
   "theorems": [
    "OpenMps.C06_spaced_particles_fit",
    "OpenMps.C06_step_never_overflows",
    "OpenMps.C06_explicit_step_succeeds"
   ],
   "note": ""
  },
  {
   "property": "C07",
   "status": "proved",
   "theorems": [
    "OpenMps.C07_neighbour_lists_exact",
    "OpenMps.C07_neighbours_in_step"
   ],
   "note": ""
  },
  {
   "property": "C08",
   "status": "proved",
   "theorems": [
    "OpenMps.C08_no_undefined_behaviour",
    "OpenMps.C08_neighbour_table_valid"
   ],
   "note": ""
  },
  {
   "property": "C09",
   "status": "proved",
   "theorems": [
    "OpenMps.C09_add_appends",
    "OpenMps.C09_step_keeps_count",
    "OpenMps.C09_step_continues_each_particle"
   ],
   "note": ""
  },
  {
   "property": "C10",
   "status": "proved",
   "theorems": [
    "OpenMps.C10_type_only_changes_to_disabled"
   ],
   "note": ""
  },
  {
   "property": "C11",
   "status": "proved",
   "theorems": [
    "OpenMps.C11_disabled_iff_outside",
    "OpenMps.C11_box"
   ],
   "note": ""
  },
  {
   "property": "C12",
   "status": "proved",
   "theorems": [
    "OpenMps.C12_time_strictly_increases",
    "OpenMps.C12_time_is_sum_of_steps"
   ],
   "note": ""
  },
  {
   "property": "C13",
   "status": "proved",
   "theorems": [
    "OpenMps.C13_automatic_step_is_largest_cfl_step",
    "OpenMps.C13_limits_of_constructor",
    "OpenMps.C13_no_particles_is_undefined"
   ],
   "note": ""
  },
  {
   "property": "C14",
   "status": "proved",
   "theorems": [
    "OpenMps.C14_nonfluid_follows_callback"
   ],
   "note": ""
  },
  {
   "property": "C15",
   "status": "proved",
   "theorems": [
    "OpenMps.C15_walls_of_the_main_program_stay",
    "OpenMps.C15_walls_of_the_main_program_have_zero_velocity",
    "OpenMps.C15_static_walls_have_zero_velocity",
    "OpenMps.C15_static_walls_stay"
   ],
   "note": ""
  },
  {
   "property": "C16",
   "status": "proved",
   "theorems": [
    "OpenMps.C16_explicit_pressure_not_negative",
    "OpenMps.C16_implicit_pressure_not_negative",
    "OpenMps.C16_pressure_not_negative"
   ],
   "note": ""
  },
  {
   "property": "C17",
   "status": "proved",
   "theorems": [
    "OpenMps.C17_density_is_all_pairs_sum",
    "OpenMps.C37_automatic_step_needs_one_search"
   ],
   "note": ""
  },
  {
   "property": "C18",
   "status": "proved",
   "theorems": [
    "OpenMps.C18_depends_only_on_visible_state"
   ],
   "note": ""
  },
  {
   "property": "C19",
   "status": "proved",
   "theorems": [
    "OpenMps.C19_no_data_race",
    "OpenMps.C19_loops_end",
    "OpenMps.C19_every_interleaving_of_memory_accesses",
    "OpenMps.C19_schedule_independent"
   ],
   "note": ""
  },
  {
   "property": "C20",
   "status": "proved",
   "theorems": [
    "OpenMps.C20_disabled_particle_limits_automatic_step",
    "OpenMps.C20_disabled_particles_inert"
   ],
   "note": "inert for a given dt; the automatic step does depend on disabled particles (proved)."
  },
  {
   "property": "C21",
   "status": "proved",
   "theorems": [
    "OpenMps.C21_viscosity_conserves_momentum",
    "OpenMps.C21_viscosity_dissipates"
   ],
   "note": ""
  },
  {
   "property": "C22",
   "status": "proved",
   "theorems": [
    "OpenMps.C22_momentum_balance",
    "OpenMps.C22_momentum_conserved_without_spp"
   ],
   "note": ""
  },
  {
   "property": "C23",
   "status": "proved",
   "theorems": [
    "OpenMps.C23_pair_repulsion",
    "OpenMps.C23_conserves_momentum"
   ],
   "note": ""
  },
  {
   "property": "C24",
   "status": "proved",
   "theorems": [
    "OpenMps.C24_matrix_is_graph_laplacian"
   ],
   "note": ""
  },
  {
   "property": "C25",
   "status": "proved",
   "theorems": [
    "OpenMps.C25_normal_return_is_converged",
    "OpenMps.C25_zero_tolerance_accepts_initial_guess",
    "OpenMps.C25_step_returns_only_converged_pressures",
    "OpenMps.C25_solver_call_returns_only_converged"
   ],
   "note": ""
  },
  {
   "property": "C26",
   "status": "proved",
   "theorems": [
    "OpenMps.C26_solver_succeeds_on_definite_systems"
   ],
   "note": ""
  },
  {
   "property": "C27",
   "status": "proved",
   "theorems": [
    "OpenMps.C27_matrix_negative_definite",
    "OpenMps.C27_pressure_equation_solvable"
   ],
   "note": ""
  },
  {
   "property": "C28",
   "status": "proved",
   "theorems": [
    "OpenMps.C28_n0_is_lattice_density",
    "OpenMps.C28_n0_positive_iff"
   ],
   "note": ""
  },
  {
   "property": "C29",
   "status": "proved",
   "theorems": [
    "OpenMps.C29_weight_is_proper_kernel"
   ],
   "note": ""
  },
  {
   "property": "C30",
   "status": "proved",
   "theorems": [
    "OpenMps.C30_no_line_is_undefined",
    "OpenMps.C30_every_text",
    "OpenMps.C30_reads_named_columns",
    "OpenMps.C30_unknown_column",
    "OpenMps.C30_missing_column",
    "OpenMps.C30_order_and_layout_independent"
   ],
   "note": ""
  },
  {
   "property": "C31",
   "status": "proved",
   "theorems": [
    "OpenMps.C31_output_can_be_read_back",
    "OpenMps.C31_output_shows_the_particles"
   ],
   "note": ""
  },
  {
   "property": "C32",
   "status": "proved",
   "theorems": [
    "OpenMps.C32_number_of_files",
    "OpenMps.C32_output_times",
    "OpenMps.C32_run_finishes"
   ],
   "note": ""
  },
  {
   "property": "C33",
   "status": "proved",
   "theorems": [
    "OpenMps.C33_solver_failure_stops_cleanly",
    "OpenMps.C33_grid_overflow_terminates",
    "OpenMps.C33_written_files_are_in_place"
   ],
   "note": ""
  },
  {
   "property": "C34",
   "status": "proved",
   "theorems": [
    "OpenMps.C34_step_commutes_with_renumbering",
    "OpenMps.C34_automatic_step_is_independent_of_numbering",
    "OpenMps.C34_reordered_program_gives_reordered_result"
   ],
   "note": ""
  },
  {
   "property": "C35",
   "status": "proved",
   "theorems": [
    "OpenMps.C35_step_commutes_with_translation",
    "OpenMps.C35_automatic_step_commutes_with_translation",
    "OpenMps.C35_translated_program_gives_translated_result",
    "OpenMps.C35_central_gravity_is_not_translation_invariant"
   ],
   "note": ""
  },
  {
   "property": "C36",
   "status": "proved",
   "theorems": [
    "OpenMps.C36_free_fall_is_downwards",
    "OpenMps.C36_trajectory_of_isolated_particle",
    "OpenMps.C36_isolated_particle_falls_freely"
   ],
   "note": ""
  },
  {
   "property": "C37",
   "status": "proved",
   "theorems": [
    "OpenMps.C37_lists_still_cover",
    "OpenMps.C37_automatic_step_needs_one_search"
   ],
   "note": ""
  },
  {
   "property": "C38",
   "status": "proved",
   "theorems": [
    "OpenMps.C38_invert_2x2",
    "OpenMps.C38_invert_3x3",
    "OpenMps.C38_nonsymmetric_3x3_is_transposed",
    "OpenMps.C38_correction_matrix_is_symmetric"
   ],
   "note": "inverse for 2x2 and for symmetric 3x3; non-symmetric 3x3 gives the transposed inverse (proved), which does not occur for the correction matrix (proved symmetric)."
  },
  {
   "property": "C39",
   "status": "proved",
   "theorems": [
    "OpenMps.C39_equation_of_state",
    "OpenMps.C39_monotone"
   ],
   "note": ""
  },
  {
   "property": "C40",
   "status": "proved",
   "theorems": [
    "OpenMps.C40_failed_step_keeps_population",
    "OpenMps.C40_step_after_failure_like_fresh"
   ],
   "note": ""
  },
  {
   "property": "C41",
   "status": "proved",
   "theorems": [
    "OpenMps.C41_position_advances_by_new_velocity"
   ],
   "note": ""
  },
  {
   "property": "C42",
   "status": "proved",
   "theorems": [
    "OpenMps.C42_step_is_the_reference_function",
    "OpenMps.C42_outcome",
    "OpenMps.C42_step_computes_the_reference_formulas"
   ],
   "note": "exact arithmetic with x/0 = 0 (C43 states when no such division happens); ARTIFICIAL_COLLISION_FORCE not modelled."
  },
  {
   "property": "C43",
   "status": "proved",
   "theorems": [
    "OpenMps.C43_step_never_divides_by_zero",
    "OpenMps.C43_well_posed_step_succeeds",
    "OpenMps.C43_constructor_is_finite",
    "OpenMps.C43_histories_stay_finite"
   ],
   "note": "exact arithmetic with checked division and root (PReal); overflow and rounding of doubles are not modelled there."
  },
  {
   "property": "C44",
   "status": "proved",
   "theorems": [
    "OpenMps.C44_step_in_another_frame",
    "OpenMps.C44_automatic_step_in_another_frame",
    "OpenMps.C44_runs_in_another_frame"
   ],
   "note": "exact arithmetic; the automatic step (CFL condition on speeds) is frame independent only for frames at relative rest."
  },
  {
   "property": "C45",
   "status": "proved",
   "theorems": [
    "OpenMps.C45_which_file",
    "OpenMps.C45_parameters_come_from_their_elements",
    "OpenMps.C45_incomplete_files_are_refused",
    "OpenMps.C45_type_of_particles",
    "OpenMps.C45_only_the_settings_matter",
    "OpenMps.C45_order_does_not_matter"
   ],
   "note": ""
  },
  {
   "property": "C46",
   "status": "proved",
   "theorems": [
    "OpenMps.C46_viscosity_never_adds_energy"
   ],
   "note": "exact arithmetic; stated for steps whose pressures come out as zero, so that the viscous part is visible in U()."
  },
  {
   "property": "C47",
   "status": "proved",
   "theorems": [
    "OpenMps.C47_no_neighbour_lost_by_rounding",
    "OpenMps.C47_neighbours_symmetric",
    "OpenMps.C47_radius_of_influence_covered"
   ],
   "note": "standard model of floating-point arithmetic as a hypothesis (structure Rounding); without fused multiply-add. C72 proves that IEEE double satisfies it and states the result for double. A computable 60-bit arithmetic is shown to satisfy it."
  },
  {
   "property": "C48",
   "status": "proved",
   "theorems": [
    "OpenMps.C48_step_in_other_units",
    "OpenMps.C48_automatic_step_in_other_units",
    "OpenMps.C48_automatic_run_in_other_units",
    "OpenMps.C48_program_in_other_units"
   ],
   "note": "exact arithmetic; with SPP a hypothesis says that the one dimensional comparison in the code (a length with 2^-52, Computer.hpp:675) has the same outcome in both units."
  },
  {
   "property": "C49",
   "status": "proved",
   "theorems": [
    "OpenMps.C49_search_in_flat_memory",
    "OpenMps.C49_clear_leaves_the_buffer"
   ],
   "note": "allocation is assumed to succeed only for buffers below 2^63 bytes; Boost's own index arithmetic is modelled as sum of index times stride."
  },
  {
   "property": "C50",
   "status": "proved",
   "theorems": [
    "OpenMps.C50_stores_are_linearizable",
    "OpenMps.C50_stores_do_not_race",
    "OpenMps.C50_stores_do_not_deadlock",
    "OpenMps.C50_contents_after_concurrent_stores",
    "OpenMps.C50_locks_are_initialized",
    "OpenMps.C50_locks_3d_left_uninitialized",
    "OpenMps.C50_locks_3d_leave_the_array"
   ],
   "note": "sequentially consistent memory; an omp atomic capture is one step; the life of the locks is proved separately (C50_locks_*): in 3-D boxes with different numbers of blocks along x and y the constructor with ATOMIC_LOCK is defective."
  },
  {
   "property": "C51",
   "status": "proved",
   "theorems": [
    "OpenMps.C51_pressure_exerts_no_torque",
    "OpenMps.C51_angular_momentum_of_an_inviscid_fluid",
    "OpenMps.C51_viscosity_changes_angular_momentum"
   ],
   "note": "exact arithmetic; without GC and without virtual surface particles; C51_viscosity_changes_angular_momentum shows the limit of the property."
  },
  {
   "property": "C52",
   "status": "proved",
   "theorems": [
    "OpenMps.C52_new_computer_continues",
    "OpenMps.C52_restart_takes_the_same_steps",
    "OpenMps.C52_files_of_a_restarted_run",
    "OpenMps.C52_restarted_run_writes_the_same_files",
    "OpenMps.C52_restart_differs_after_a_particle_leaves"
   ],
   "note": "numbers of the file printed exactly (the program prints 6 digits, so real restarts are only this close to exact; C31 says what is read back); files of the two runs compared in exact arithmetic; as long as no further particle is disabled, and C52_restart_differs_after_a_particle_leaves shows that this cannot be dropped."
  },
  {
   "property": "C53",
   "status": "proved",
   "theorems": [
    "OpenMps.C53_decimal_texts_are_read",
    "OpenMps.C53_text_shows_a_nearest_six_digit_decimal",
    "OpenMps.C53_six_digit_numbers_are_shown_exactly",
    "OpenMps.C53_files_keep_six_digits",
    "OpenMps.C53_restart_begins_with_the_same_file"
   ],
   "note": "finite values without negative zero; unbounded exponents, range errors via a parameter; decimal texts only; files read with the program's conversions as modelled from the C++ library's specification. The closeness is of the file's numbers, not of two further computations."
  },
  {
   "property": "C54",
   "status": "proved",
   "theorems": [
    "OpenMps.C54_file_names_differ",
    "OpenMps.C54_file_names_are_in_order",
    "OpenMps.C54_no_file_is_overwritten"
   ],
   "note": ""
  },
  {
   "property": "C55",
   "status": "proved",
   "theorems": [
    "OpenMps.C55_step_of_moved_scene",
    "OpenMps.C55_automatic_step_of_moved_scene",
    "OpenMps.C55_run_of_moved_scene",
    "OpenMps.C55_symmetric_scene_stays_symmetric",
    "OpenMps.C55_symmetric_scene_stays_symmetric_in_runs"
   ],
   "note": "exact arithmetic (sums in another order differ by rounding in the program); one of the two grids may be too crowded when the other is not, since cells do not correspond; runs inside the grid (the region of the grid is half-open, so a particle exactly on its border may be disabled on one side only)."
  },
  {
   "property": "C56",
   "status": "proved",
   "theorems": [
    "OpenMps.C56_serial_build_same_step",
    "OpenMps.C56_serial_build_same_run"
   ],
   "note": "full statement, any arithmetic; the two builds link the same linear algebra (ViennaCL itself compiled with OpenMP may sum in another order, which is not modelled)."
  },
  {
   "property": "C57",
   "status": "proved",
   "theorems": [
    "OpenMps.C57_step_succeeds",
    "OpenMps.C57_pressure_equation_determines_pressures",
    "OpenMps.C57_without_surface_pressure_level_is_open",
    "OpenMps.C57_pressure_signs",
    "OpenMps.C57_more_compression_more_pressure",
    "OpenMps.C57_no_peak_without_compression",
    "OpenMps.C57_step_pressures_accurate",
    "OpenMps.C57_implicit_step_computes_the_pressures"
   ],
   "note": "full statement in exact arithmetic; the error bound is relative to the response function, whose size depends on the scene."
  },
  {
   "property": "C58",
   "status": "proved",
   "theorems": [
    "OpenMps.C58_linear_pressure_accelerates_exactly",
    "OpenMps.C58_viscosity_is_the_laplacian",
    "OpenMps.C58_pressure_equation_on_the_lattice"
   ],
   "note": "full statement in exact arithmetic; the lattice arrangement is a hypothesis (with a 5x5 patch as an example)."
  },
  {
   "property": "C59",
   "status": "proved",
   "theorems": [
    "OpenMps.C59_rate_is_the_derivative_of_the_density",
    "OpenMps.C59_rigid_motion_has_no_rate",
    "OpenMps.C59_gc_is_exact_on_linear_pressure"
   ],
   "note": "full statement in exact arithmetic; excluded are the kinks (distance exactly r_e, coincidence, SPP density exactly n0), where no derivative exists."
  },
  {
   "property": "C60",
   "status": "proved",
   "theorems": [
    "OpenMps.C60_pressureless_body_keeps_its_shape",
    "OpenMps.C60_scene_in_uniform_motion_is_solved"
   ],
   "note": "full statement in exact arithmetic, without CENTRAL_GRAVITY."
  },
  {
   "property": "C61",
   "status": "proved",
   "theorems": [
    "OpenMps.C61_explicit_step_is_local",
    "OpenMps.C61_explicit_body_evolves_alone",
    "OpenMps.C61_exact_pressures_of_a_body_are_its_own"
   ],
   "note": "full statement in exact arithmetic; explicit mode for the computed result, implicit mode for the exact solution of the pressure equation."
  },
  {
   "property": "C62",
   "status": "proved",
   "theorems": [
    "OpenMps.C62_centre_of_mass_falls_freely"
   ],
   "note": "full statement in exact arithmetic."
  },
  {
   "property": "C63",
   "status": "proved",
   "theorems": [
    "OpenMps.C63_density_is_accurate",
    "OpenMps.C63_density_after_search_is_accurate"
   ],
   "note": "standard model of floating-point arithmetic; needs a lower bound of the distances, as the weight is singular at 0."
  },
  {
   "property": "C64",
   "status": "proved",
   "theorems": [
    "OpenMps.C64_step_follows_the_equations_of_motion"
   ],
   "note": "explicit mode, exact arithmetic; with GC and SPP together only away from the surface (a virtual particle appears discontinuously in the correction matrix)."
  },
  {
   "property": "C65",
   "status": "proved",
   "theorems": [
    "OpenMps.C65_automatic_step_in_rounded_arithmetic",
    "OpenMps.C65_run_finishes_in_rounded_arithmetic",
    "OpenMps.C65_output_times_in_rounded_arithmetic"
   ],
   "note": "rounded arithmetic described by Rounding with DoubleLike and Ordinary (relative error 2^-50, absolute floor \u03b7, overflow bound \u03a9); instance roundedRat; C72 proves that binary64 is such a format and states the result for double."
  },
  {
   "property": "C66",
   "status": "proved",
   "theorems": [
    "OpenMps.C66_unused_options_do_not_matter",
    "OpenMps.C66_spp_only_floors_the_density_in_explicit_mode",
    "OpenMps.C66_spp_is_idle_without_deficiency",
    "OpenMps.C66_ds_is_idle_without_close_pairs",
    "OpenMps.C66_ecs_is_idle_at_the_reference_density"
   ],
   "note": "exact arithmetic; run-level for unused options and for SPP in the explicit mode, step-level for the others."
  },
  {
   "property": "C67",
   "status": "proved",
   "theorems": [
    "OpenMps.C67_static_pressure_stays_symmetric",
    "OpenMps.C67_central_gravity_stays_symmetric",
    "OpenMps.C67_benchmark_files_are_read",
    "OpenMps.C67_explicit_programs_refuse_the_files",
    "OpenMps.C67_static_pressure_density",
    "OpenMps.C67_koshizuka_density",
    "OpenMps.C67_zhou_density",
    "OpenMps.C67_central_gravity_density",
    "OpenMps.C67_check_uses_the_same_n0",
    "OpenMps.C67_static_pressure_scene",
    "OpenMps.C67_koshizuka_scene",
    "OpenMps.C67_zhou_scene",
    "OpenMps.C67_central_gravity_scene",
    "OpenMps.C67_first_step_has_the_largest_length",
    "OpenMps.C67_static_pressure_first_step",
    "OpenMps.C67_koshizuka_first_step",
    "OpenMps.C67_zhou_first_step",
    "OpenMps.C67_first_step_keeps_all_particles"
   ],
   "note": "geometry, densities and symmetry in exact arithmetic; reading the file for any scalar type. Includes the defect that the files lack the velocity of sound for PRESSURE_EXPLICIT."
  },
  {
   "property": "C68",
   "status": "proved",
   "theorems": [
    "OpenMps.C68_watched_residual_is_nearly_the_true_one",
    "OpenMps.C68_returned_solution_is_accurate",
    "OpenMps.C68_step_pressures_are_accurate"
   ],
   "note": "in the standard model of floating-point arithmetic; sums are taken in index order (the bound does not depend on the order). Hypothesis: no overflow; the bound uses the largest intermediate pressure X and, in the underflow terms, the largest step length."
  },
  {
   "property": "C69",
   "status": "proved",
   "theorems": [
    "OpenMps.C69_density_after_step",
    "OpenMps.C69_densities_after_steps",
    "OpenMps.C69_edge_curve",
    "OpenMps.C69_edge_curve_succeeds",
    "OpenMps.C69_zhou_curves",
    "OpenMps.C69_check_curves",
    "OpenMps.C69_no_roundness_with_spp",
    "OpenMps.C69_drops_count_with_spp",
    "OpenMps.C69_shape_pictures",
    "OpenMps.C69_edge_of_file",
    "OpenMps.C69_edge_is_accurate",
    "OpenMps.C69_zhou_of_file",
    "OpenMps.C69_check_of_file"
   ],
   "note": "reading of files, the numbers plotted and their abscissae; exact arithmetic in the scripts; the plotting itself and the data of other authors are not modelled; Python's csv module without quotation marks. C69_no_roundness_with_spp and C69_drops_count_with_spp are defects."
  },
  {
   "property": "C70",
   "status": "proved",
   "theorems": [
    "OpenMps.C70_files_are_read_as_written",
    "OpenMps.C70_end_tags_are_not_compared",
    "OpenMps.C70_a_file_is_one_document",
    "OpenMps.C70_interrupted_files_are_refused_or_complete",
    "OpenMps.C70_a_file_without_its_end_is_refused",
    "OpenMps.C70_written_trees_are_read",
    "OpenMps.C70_generated_files_are_read",
    "OpenMps.C70_numbers_in_settings",
    "OpenMps.C70_number_of_steps",
    "OpenMps.C70_malformed_settings_stop_the_program"
   ],
   "note": "characters instead of UTF-8 bytes; Boost's RapidXml parser, stream conversions and Python's minidom are modelled from their known sources (they are not in /repo); decimal numbers only; the grammar covers XML without declared entities. C70_end_tags_are_not_compared and the minus sign in C70_number_of_steps are defects."
  },
  {
   "property": "C71",
   "status": "proved",
   "theorems": [
    "OpenMps.C71_free_surface_in_double",
    "OpenMps.C71_first_stage_is_accurate",
    "OpenMps.C71_pressure_gradient_is_accurate",
    "OpenMps.C71_equation_of_state_is_accurate",
    "OpenMps.C71_wall_velocity_is_accurate",
    "OpenMps.C71_first_stage_at_a_free_surface",
    "OpenMps.C71_virtual_neighbour_is_near",
    "OpenMps.C71_first_stage_of_a_step_is_accurate",
    "OpenMps.C71_second_stage_of_a_step_is_accurate",
    "OpenMps.C71_step_is_accurate",
    "OpenMps.C71_step_in_double",
    "OpenMps.C71_first_stage_of_a_step_at_a_free_surface"
   ],
   "note": "in the standard model of floating-point arithmetic. Hypotheses: constants between 2^-30 and 2^30 (lambda 2^60), at most 2^20 neighbours, a minimum distance. The first stage is covered with virtual neighbours (C71_first_stage_at_a_free_surface, C71_free_surface_in_double: no condition on the density; n_0 at most 2^10, domain at most 2^20 r_e); the pressure stage without (SPP off or density safely above n_0). C71_step_is_accurate follows the whole step (C71_step_in_double for IEEE doubles, with an example scene meeting all hypotheses). The pressure equation itself is C74. Not covered: virtual neighbours in the pressure gradient (its direction there is ill-conditioned), gradient correction, central gravity, dynamic stabilisation."
  },
  {
   "property": "C72",
   "status": "proved",
   "theorems": [
    "OpenMps.C72_operations_are_correctly_rounded",
    "OpenMps.C72_double_satisfies_the_rounding_model",
    "OpenMps.C72_no_neighbour_lost_in_double",
    "OpenMps.C72_neighbours_symmetric_in_double",
    "OpenMps.C72_pressure_matrix_symmetric_in_double",
    "OpenMps.C72_action_is_reaction_in_double",
    "OpenMps.C72_first_stage_in_double",
    "OpenMps.C72_automatic_step_in_double",
    "OpenMps.C72_run_finishes_in_double",
    "OpenMps.C72_output_times_in_double",
    "OpenMps.C72_solver_in_double",
    "OpenMps.C72_exceptional_operands",
    "OpenMps.C72_infinities",
    "OpenMps.C72_zeros_and_constants",
    "OpenMps.C72_number_of_outputs_in_double"
   ],
   "note": "binary64, round to nearest even, one operation at a time (no fused multiply-add, although -march=native would permit a compiler to contract); one NaN. The first-stage theorem has the hypotheses of C71; run and solver theorems those of C65 and C68."
  },
  {
   "property": "C73",
   "status": "proved",
   "theorems": [
    "OpenMps.C73_texts_are_read_correctly_rounded",
    "OpenMps.C73_infinite_and_nan_texts",
    "OpenMps.C73_text_shows_a_nearest_six_digit_decimal",
    "OpenMps.C73_numbers_survive_files",
    "OpenMps.C73_files_in_double",
    "OpenMps.C73_restart_begins_with_the_same_file"
   ],
   "note": "All bit patterns. The C++ library (glibc's printf and strtod, libstdc++'s stod) is modelled: %g texts, correct rounding, ERANGE for overflow and for inexact tiny results. Not modelled: hexadecimal texts, payloads of NaN. Finding: nonzero values below 2.225075e-308 (including DBL_MIN itself) are written but make std::stod throw on restart. The example also shows that a run from 0.5 to 0.501 with interval 0.001 makes two further outputs instead of one, because the quotient in double exceeds 1."
  },
  {
   "property": "C74",
   "status": "proved",
   "theorems": [
    "OpenMps.C74_pressures_of_a_step_in_double",
    "OpenMps.C74_pressure_equation_at_a_free_surface",
    "OpenMps.C74_pressures_of_a_step_at_a_free_surface",
    "OpenMps.C74_pressures_of_a_step_solve_the_poisson_equation",
    "OpenMps.C74_free_surface_in_double",
    "OpenMps.C74_pressure_equation_is_accurate",
    "OpenMps.C74_solutions_solve_the_poisson_equation",
    "OpenMps.C74_computed_pressures_solve_the_poisson_equation"
   ],
   "note": "First without virtual neighbours (SPP off, or density safely above n_0), then at a free surface without any condition on the density (the virtual neighbour is Beyond: its distance known to r_e/2^25). The minimum distance, the bound on the displacement in the first stage and sizes of numbers are hypotheses about the state before the pressure stage; the solver part has the hypothesis CalmRun of C68. Instances: a step in rounded rationals and a step in double that compute a pressure above 30000; with SPP, a step in double where a particle with density below n_0 - 2 gets a pressure above 2900."
  },
  {
   "property": "C75",
   "status": "proved",
   "theorems": [
    "OpenMps.C75_inner_products",
    "OpenMps.C75_uncontracted_is_a_choice",
    "OpenMps.C75_squared_distances",
    "OpenMps.C75_interaction_test",
    "OpenMps.C75_search_test",
    "OpenMps.C75_motion",
    "OpenMps.C75_fma_special_values",
    "OpenMps.C75_fma_is_correctly_rounded",
    "OpenMps.C75_contracted_expressions_are_accurate",
    "OpenMps.C75_choices_of_the_compiler_agree",
    "OpenMps.C75_contracted_search_loses_no_neighbour"
   ],
   "note": "Expression trees over + - * / sqrt with a nondeterministic choice of fusion at every product that is an operand of a sum or difference, the inner products and squared distances of the program, both distance tests, a whole row of the neighbour search and the motion. Not proved: the bounds of C65, C71, C74 for whole steps under contraction (for a particular expression they follow from C75_contracted_expressions_are_accurate); reassociation and vectorised reductions are excluded (-ffast-math is not set). Examples: 0.1*10-1 is 0 unfused and 2^-54 fused; squared distances that differ; a computer with a history whose row is computed with all products fused."
  }
 ]
}