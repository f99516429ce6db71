# Formal model of openmps/openmps in Lean 4 — design

## 1. Approach

The code is a header-only particle (MPS) fluid solver with a driver program. The model transcribes it
function by function into total Lean functions, with three deliberate choices:

1. **Abstract scalar type.** `double` becomes a type `F` with a class `Scalar F` that provides
   `+ - * /`, unary minus, `sqrt`, `abs`, `<`, `<=`, `==`, conversions from integers, and the partial
   conversions `static_cast<Index>(std::floor(x))`, `static_cast<Index>(std::ceil(x))`
   (`none` = undefined behaviour).  The class has *no laws*.  Every structural theorem
   (population, types, time, frames, schedule independence, independence of scratch memory, memory
   safety, file formats ...) is proved for **every** `Scalar F`; it therefore also holds for IEEE doubles
   with rounding, infinities and NaN.  Numerical theorems are proved for the instance `ℝ`
   (exact arithmetic); for the solver theorem C25 and for C43 there is a second instance `PReal` = reals
   plus one "bad" value (NaN/Inf) that division by zero and roots of negative numbers produce, that
   is absorbing in all operations, and for which all comparisons are false.  A third instance over the
   integers (`instScalarInt`, in `Spec/Toy.lean`) serves only for the non-vacuity examples, which the kernel evaluates.
   A fourth instance is `double` itself: `Model/Double.lean` models the bits of IEEE 754 binary64 (C72), and the theorems about rounding are proved for it.
   There is no instance for Lean's compiled `Float`: nothing is claimed by running the model.
2. **Compile-time options** are a record `Config` of Booleans
   (`spp hs hl ecs gc ds explicit centralGravity midpoint`), the dimension `D` is a parameter (the code has `D = 2`
   and `D = 3`). `Config.default` is what `defines.hpp` selects. Unless a theorem restricts `cfg`, it holds for all
   combinations.
3. **Undefined behaviour, exceptions and divergence are outcomes.** `ForwardTime` returns
   `Res.ok s | Res.exn e s | Res.ub`, where `s` after an exception is the state the object is left in.

Parallel loops are modelled operationally. In `Model/Par.lean` a *schedule* is any interleaving of the read
phases and commit phases of the iterations; each loop of the code is a `parLoop` over a schedule and the serial
loop is one particular schedule. All theorems about steps quantify over all schedules.
`Model/Fine.lean` goes one level down: the bodies of the loops are programs of single loads and stores of the fields of
particles and scratch arrays, and a loop may interleave these accesses arbitrarily. C19 proves that no interleaving
contains a data race, that every interleaving ends, and that its result is the one of the serial loop; hence the
coarse model of `Par.lean` loses nothing.

## 2. Layout (under `lean/Verif/`)

* `Model/*.lean` — the model; every definition cites `/repo` file and lines and names its simplifications.
  `Scalar, Particle` (Vector.hpp, Particle.hpp, Environment.hpp, defines.hpp), `Grid` (Grid.hpp), `Par` (OpenMP loops),
  `Matrix` (InvertMatrix etc.), `Cg` (the conjugate-gradient solver), `Computer` (Computer.hpp), `Csv` (the CSV parts of
  Main.cpp and stov.hpp), `Main` (the driver of Main.cpp), `Instances` (ℝ, PReal), `Fine` (the parallel
  loops of Computer.hpp as programs of single memory accesses), `Xml` (the property tree and the reading of the settings in Main.cpp),
  `Machine` (Grid.hpp and the neighbour table once more, with 64-bit words and flat buffers), `ConcurrentStore`
  (Grid::Store called by several threads, as interleaved memory accesses and lock operations), `Locks` (initialisation and destruction of the locks),
  `Text` (numbers in files: `operator<<`, `std::stod`, `std::stoi`; names of files), `SerialBuild` (the variants compiled without OpenMP),
  `Benchmark` (the Python programs in `Benchmark/` that write input files, and `calculate_n0` of `check_result.py`),
  `Evaluate` (the Python programs in `Benchmark/` that read the files of a run), `XmlText` (characters of XML files),
  `Double` (the type `double`: IEEE 754 binary64).
* `Spec/*.lean` — small independent specifications (contents of blocks, all-pairs sums, histories of calls, the
  reference formulas of a step ...). They do not mention grids' packed iterators, neighbour tables, buffers or schedules.
* `Lemmas/*.lean` — helper lemmas.
* `Props/*.lean` — property theorems (names `Cnn_...`), each accompanied by an `example` showing
  that a concrete non-trivial case meets the hypotheses.
* `/verif/seeded/LOG.jsonl` — the wrong programs against which the theorems were tested.

## 3. Trusted base

* Lean 4.33.0 kernel. Axioms: every theorem depends on a subset of `propext`, `Classical.choice`, `Quot.sound`
  (checked with `#print axioms`). No own axioms, no compiled-code tactics. `decide +kernel` (used for the toy
  examples and small facts) is evaluated by the kernel.
* The reading of the C++ sources by which the model was written (definitions carry citations).
* Library behaviour that is assumed: Boost uBLAS vector operations (component-wise; `inner_prod`
  accumulates left to right from 0), `boost::multi_array` (plain array), uBLAS/ViennaCL sparse product and dot product
  (sums of products over stored entries in index order), `std::max_element` (first maximum), `std::vector`,
  `std::getline`-free splitting by `boost::algorithm::split`.

### Modelled
`Vector.hpp`, `Particle.hpp`, `Environment.hpp` (constructor with n0 and λ loops, all getters, `SetNextT`), `Grid.hpp`
(constructor, `Clear`, `Store`, the iterator with its packed index, `cbegin/cend`), `Computer.hpp` (constructor,
`AddParticles`, `SearchNeighbor`, `DetermineDt`, `ComputeNeighborDensities`, density-variation speed, ECS,
`ComputeExplicitForces`, `ComputeImplicitForces` implicit and explicit, `SetPressurePoissonEquation`,
`SolvePressurePoissonEquation`, pressure clipping, pressure gradient with and without GC, `InvertMatrix`, dynamic
stabilisation, `ForwardTime(dt)`, `ForwardTime()`, SPP virtual particles), `Main.cpp` (`InputFromCsv`, `OutputToCsv`,
`LoadCondition`, `LoadEnvironment`, `LoadParticles`, choice of the input file, the output loop, the exception handler),
`Benchmark/*/generate*.py` (sites, ranges and the tree of the file; `str` of numbers is a parameter, the writing of characters by `minidom` is in `Model/XmlText.lean`),
the evaluation scripts `check_result.py`, `koshizukaoka1996_edge.py`, `koshizukaoka1996_shape.py`, `zhouetal1999.py` (reading of the files and the numbers plotted; not the plotting, the
files of other authors, quotation marks in csv files; `float` and `int` are parameters; `statistics.mean` and numpy in exact arithmetic).

### Not modelled
* Machine integers (`std::size_t`, `ptrdiff_t`) are unbounded, except in `Model/Machine.lean`, where the grid and the neighbour table use 64-bit
  words (C49 shows that the search is the same). Memory is never exhausted.
* Rounding error in the numerical theorems (they are about exact arithmetic), except for the neighbour search, the number density, the time step, the pressure solver and the accelerations, where C47, C63, C65, C68 and C71 bound it in the
  standard model of floating-point arithmetic (`Spec/Rounding.lean`); C72 proves that IEEE 754 binary64 (`Model/Double.lean`) satisfies this model. Trusted: `double` is binary64, evaluated operation by operation to nearest without extended precision and without
  fused multiply-add; contraction into fused multiply-adds (`Model/Contract.lean`) is covered by C75 for expressions, distances, the neighbour search and the motion, not for whole steps. Numbers in files (texts of all bit patterns, `std::stod` with its range errors as in glibc) are modelled for `double` (C73), except hexadecimal texts. Not modelled: payloads of NaN, exception flags, ViennaCL's parallel reduction order.
  Over ℝ, Lean's `x / 0 = 0` where the program would produce Inf/NaN. C43 states when no such division happens.
* Console output, wall-clock timer, `mkdir`'s effect. Number formatting and parsing and the XML parser are parameters in `Model/Csv.lean`, `Model/Main.lean`
  and `Model/Xml.lean`; `Model/Text.lean` models the numbers of the C++ library (finite values without negative zero, unbounded exponents, decimal texts) and `Model/XmlText.lean` the parser
  (Boost's RapidXml, on characters instead of UTF-8 bytes), the conversion of attributes and Python's `toprettyxml`. These are models of libraries written from their sources as known, not from `/repo`; that they agree with
  the installed versions is trusted.
* `ARTIFICIAL_COLLISION_FORCE` and the non-midpoint pressure gradient without GC: this code does not compile in the
  pinned commit (it uses members that do not exist: `GetCorrectionByTooNear`, `Particle::Ptr`, ...).

## 4. Properties, proofs and theorems

| id | property | method | theorems |
|----|----------|--------|----------|
| C01 | Grid iteration enumerates the surrounding blocks exactly once | packed index simulated by the list of remaining blocks; induction on that list | `C01_iteration_enumerates_surrounding_blocks`, `C01_each_number_once` |
| C02 | No near particle is missed by the grid | floor inequality over ℝ, then C01 | `C02_near_particle_is_yielded` |
| C03 | Store rejects exactly the positions outside the grid and then changes nothing | case analysis of `Grid.store`, for every `Scalar` | `C03_store_false_iff_outside`, `C03_store_true_adds_one` |
| C04 | Store throws exactly on overfull blocks, and no slot write is ever out of bounds | invariant over store sequences | `C04_throws_iff_full`, `C04_slot_write_in_bounds`, `C04_capacity` |
| C05 | Clear resets the grid completely | direct for D = 2; explicit counterexamples for D = 3 | `C05_clear_empties`, `C05_clear_behaves_like_new`, `C05_two_dimensional`, `C05_clear3d_incomplete`, `C05_clear3d_out_of_bounds` |
| C06 | Well-spaced particles never overflow a block | pigeonhole on cells of side l_0; lifted to the whole step | `C06_spaced_particles_fit`, `C06_step_never_overflows`, `C06_explicit_step_succeeds` |
| C07 | Neighbour lists are exact | C01 + C02, invariant of the search loop under every schedule | `C07_neighbour_lists_exact`, `C07_neighbours_in_step` |
| C08 | A time step never reads or writes out of bounds | invariant: ids < n, block counts ≤ cap, rows ≤ cap·3^D; every array access of the model that could leave its array yields `Res.ub` | `C08_no_undefined_behaviour`, `C08_neighbour_table_valid` |
| C09 | A time step preserves the population | frame lemmas per phase, induction over histories | `C09_add_appends`, `C09_step_keeps_count`, `C09_step_continues_each_particle` |
| C10 | The only type change is to Disabled, and it is permanent | frame lemmas, induction over histories | `C10_type_only_changes_to_disabled` |
| C11 | Particles are disabled exactly when they leave the grid | floor/ceil inequalities over ℝ | `C11_disabled_iff_outside`, `C11_box` |
| C12 | Simulation time is the sum of the steps taken | frame lemmas, induction over histories | `C12_time_strictly_increases`, `C12_time_is_sum_of_steps` |
| C13 | The automatic time step satisfies the CFL limits | fold-max lemma for `std::max_element` | `C13_automatic_step_is_largest_cfl_step`, `C13_limits_of_constructor`, `C13_no_particles_is_undefined` |
| C14 | Non-fluid particles follow the wall callback exactly | frame lemmas per phase | `C14_nonfluid_follows_callback` |
| C15 | Walls that do not move stay put | C14, induction over histories | `C15_walls_of_the_main_program_stay`, `C15_walls_of_the_main_program_have_zero_velocity`, `C15_static_walls_have_zero_velocity`, `C15_static_walls_stay` |
| C16 | Pressures are never negative | guard of the clipping, every `Scalar` with the two order facts stated in the theorem | `C16_explicit_pressure_not_negative`, `C16_implicit_pressure_not_negative`, `C16_pressure_not_negative` |
| C17 | Number density is the all-pairs weight sum, floored at n0 with SPP | C07 + fold = Finset sum | `C17_density_is_all_pairs_sum`, `C37_automatic_step_needs_one_search` |
| C18 | A step depends only on the visible state | simulation relation 'same visible state', phase by phase | `C18_depends_only_on_visible_state` |
| C19 | Results do not depend on the OpenMP schedule | commutation of commits, induction over schedules; ownership discipline of the memory accesses of every loop body, confluence | `C19_no_data_race`, `C19_loops_end`, `C19_every_interleaving_of_memory_accesses`, `C19_schedule_independent` |
| C20 | Disabled particles are inert | non-interference relation per phase; counterexample for the automatic step | `C20_disabled_particle_limits_automatic_step`, `C20_disabled_particles_inert` |
| C21 | Viscosity conserves momentum and dissipates energy | antisymmetric double sums | `C21_viscosity_conserves_momentum`, `C21_viscosity_dissipates` |
| C22 | Pressure forces conserve momentum between particles | antisymmetric double sums | `C22_momentum_balance`, `C22_momentum_conserved_without_spp` |
| C23 | Dynamic stabilisation repels and conserves momentum | antisymmetric double sums; sign of the radicand | `C23_pair_repulsion`, `C23_conserves_momentum` |
| C24 | The pressure matrix is a symmetric graph Laplacian | symmetry from C07; Laplacian quadratic form | `C24_matrix_is_graph_laplacian` |
| C25 | The pressure solver never returns an unconverged solution | loop invariant r = b − A x over `PReal` (division by zero is an absorbing bad value) | `C25_normal_return_is_converged`, `C25_zero_tolerance_accepts_initial_guess`, `C25_step_returns_only_converged_pressures`, `C25_solver_call_returns_only_converged` |
| C26 | The pressure solver succeeds on definite systems | CG conjugacy/orthogonality, dimension argument | `C26_solver_succeeds_on_definite_systems` |
| C27 | The pressure equation is solvable whenever every fluid body has a free surface | connectivity ⇒ definiteness, then C26 | `C27_matrix_negative_definite`, `C27_pressure_equation_solvable` |
| C28 | n0 is the density of the full reference lattice | finite sums over ℝ | `C28_n0_is_lattice_density`, `C28_n0_positive_iff` |
| C29 | The weight function is a proper kernel | real analysis | `C29_weight_is_proper_kernel` |
| C30 | CSV input depends only on the named columns | list lemmas on splitting, for every text | `C30_no_line_is_undefined`, `C30_every_text`, `C30_reads_named_columns`, `C30_unknown_column`, `C30_missing_column`, `C30_order_and_layout_independent` |
| C31 | An output file can be read back | list lemmas on splitting | `C31_output_can_be_read_back`, `C31_output_shows_the_particles` |
| C32 | Output files are numbered consecutively and written at the right times | induction over outputs and steps | `C32_number_of_files`, `C32_output_times`, `C32_run_finishes` |
| C33 | A solver failure stops the run cleanly, a grid overflow does not | induction over outputs | `C33_solver_failure_stops_cleanly`, `C33_grid_overflow_terminates`, `C33_written_files_are_in_place` |
| C34 | Particle numbering does not matter | equivariance of every phase under a permutation of the numbers | `C34_step_commutes_with_renumbering`, `C34_automatic_step_is_independent_of_numbering`, `C34_reordered_program_gives_reordered_result` |
| C35 | Translation invariance | equivariance of every phase under a shift | `C35_step_commutes_with_translation`, `C35_automatic_step_commutes_with_translation`, `C35_translated_program_gives_translated_result`, `C35_central_gravity_is_not_translation_invariant` |
| C36 | An isolated fluid particle falls freely | empty neighbour list | `C36_free_fall_is_downwards`, `C36_trajectory_of_isolated_particle`, `C36_isolated_particle_falls_freely` |
| C37 | One neighbour search per step is enough | triangle inequality, speed limits of the automatic step | `C37_lists_still_cover`, `C37_automatic_step_needs_one_search` |
| C38 | Gradient-correction matrix inversion | determinant algebra | `C38_invert_2x2`, `C38_invert_3x3`, `C38_nonsymmetric_3x3_is_transposed`, `C38_correction_matrix_is_symmetric` |
| C39 | Explicit pressure is a monotone equation of state | direct | `C39_equation_of_state`, `C39_monotone` |
| C40 | A failed step can be followed by further steps | frame lemmas + C18 | `C40_failed_step_keeps_population`, `C40_step_after_failure_like_fresh` |
| C41 | Positions advance by the new velocity | per-phase invariant x' = x + u'·dt | `C41_position_advances_by_new_velocity` |
| C42 | A time step computes the published formulas | refinement: every phase of the program equals the closed formula of `Spec/Reference.lean`; the solver loop simulates the textbook recurrence of `Spec/ReferenceStep.lean`; overflow of a cell by counting | `C42_step_is_the_reference_function`, `C42_outcome`, `C42_step_computes_the_reference_formulas` |
| C43 | No division by zero: finite numbers stay finite | every phase commutes with the embedding of ℝ into `PReal`; every denominator shown non-zero from the stated conditions; induction over histories | `C43_step_never_divides_by_zero`, `C43_well_posed_step_succeeds`, `C43_constructor_is_finite`, `C43_histories_stay_finite` |
| C44 | Physics does not depend on the frame of reference | equivariance of every reference formula under orthogonal matrices, shifts and boosts, carried to the program by C42 | `C44_step_in_another_frame`, `C44_automatic_step_in_another_frame`, `C44_runs_in_another_frame` |
| C45 | The configuration file is read as written | look-up in the property tree shown equal to look-up in the document; the reads then characterised one by one | `C45_which_file`, `C45_parameters_come_from_their_elements`, `C45_incomplete_files_are_refused`, `C45_type_of_particles`, `C45_only_the_settings_matter`, `C45_order_does_not_matter` |
| C46 | Viscosity takes energy out of the flow | the exchanged velocity is a convex mean with symmetric shares; carried to the program by C42 | `C46_viscosity_never_adds_energy` |
| C47 | Rounding loses no neighbour | error analysis of the block number and of the distance in the standard model of floating-point arithmetic, on top of the arithmetic-independent description of the lists | `C47_no_neighbour_lost_by_rounding`, `C47_neighbours_symmetric`, `C47_radius_of_influence_covered` |
| C48 | Results do not depend on the units | every reference formula is shown to be dimensionally homogeneous, carried to the program by C42; runs by induction over the calls | `C48_step_in_other_units`, `C48_automatic_step_in_other_units`, `C48_automatic_run_in_other_units`, `C48_program_in_other_units` |
| C49 | The neighbour search in 64-bit arithmetic on flat memory | forward simulation from the search with unbounded numbers: representation relation between array cells and flat words, preserved by every access; bounds on sizes derived from the allocation | `C49_search_in_flat_memory`, `C49_clear_leaves_the_buffer` |
| C50 | Store may be called from several threads | inductive invariant with the ghost list of counted calls (linearization point: the increment); mutual exclusion and distinct pending slots are part of it; the loops over the locks by induction over the flat addresses | `C50_stores_are_linearizable`, `C50_stores_do_not_race`, `C50_stores_do_not_deadlock`, `C50_contents_after_concurrent_stores`, `C50_locks_are_initialized`, `C50_locks_3d_left_uninitialized`, `C50_locks_3d_leave_the_array` |
| C51 | Pressure exerts no torque | from C42: pair forces of the reference step are central with symmetric coefficients, so their moments cancel; a concrete step shows that viscous forces do not cancel | `C51_pressure_exerts_no_torque`, `C51_angular_momentum_of_an_inviscid_fluid`, `C51_viscosity_changes_angular_momentum` |
| C52 | Runs can be continued from their files | simulation between two computers that differ only in clock and internal tables, using C18 and the fact that a step uses the clock only in the callbacks; the file is read back by C31; output numbers by minimality of the step counts of C32; a concrete integer run for the limit | `C52_new_computer_continues`, `C52_restart_takes_the_same_steps`, `C52_files_of_a_restarted_run`, `C52_restarted_run_writes_the_same_files`, `C52_restart_differs_after_a_particle_leaves` |
| C53 | Numbers in files keep six digits | the C++ library's %g layout and strtod are modelled on characters; rounding to nearest and its stability under small changes over any ordered field; reading inverts layout for every digit string; the file theorems follow with C30/C31/C33 | `C53_decimal_texts_are_read`, `C53_text_shows_a_nearest_six_digit_decimal`, `C53_six_digit_numbers_are_shown_exactly`, `C53_files_keep_six_digits`, `C53_restart_begins_with_the_same_file` |
| C54 | Output files are kept apart and sort in time order | digit lists of equal length compare like their values; numbers of the files by C33 | `C54_file_names_differ`, `C54_file_names_are_in_order`, `C54_no_file_is_overwritten` |
| C55 | Runs of moved scenes, and symmetric scenes stay symmetric | reference step (C42) commutes with orthogonal maps and renumbering, including the conjugate-gradient iteration; symmetric = moved to itself | `C55_step_of_moved_scene`, `C55_automatic_step_of_moved_scene`, `C55_run_of_moved_scene`, `C55_symmetric_scene_stays_symmetric`, `C55_symmetric_scene_stays_symmetric_in_runs` |
| C56 | The build without OpenMP computes the same | second model of the step (plain loops, matrix written inside the neighbour sum); effectful and pure neighbour sums related by induction over the neighbours, then phase by phase | `C56_serial_build_same_step`, `C56_serial_build_same_run` |
| C57 | Implicit pressures are those of the pressure equation, to within the tolerance | reference form of the pressure equation; discrete minimum principle by taking a minimum over the body and spreading it along joined particles, comparison, solvability by injectivity in finite dimension, error bound by comparison with the response; transported to the step by C25 and C42 | `C57_step_succeeds`, `C57_pressure_equation_determines_pressures`, `C57_without_surface_pressure_level_is_open`, `C57_pressure_signs`, `C57_more_compression_more_pressure`, `C57_no_peak_without_compression`, `C57_step_pressures_accurate`, `C57_implicit_step_computes_the_pressures` |
| C58 | The discrete operators are exact on the reference lattice | lattice sums: odd sums vanish by v -> -v, mixed second moments by reflecting one axis, pure ones are equal by swapping axes; n0 and lambda are the same sums by C17; gradient and Laplacian of C42 evaluated on them | `C58_linear_pressure_accelerates_exactly`, `C58_viscosity_is_the_laplacian`, `C58_pressure_equation_on_the_lattice` |
| C59 | HS takes the derivative of the density, GC is exact on linear pressure, in any arrangement | HasDerivAt of the weight along a line, sum over the candidates of the step; antisymmetric matrices have no quadratic form; GC: force = inverse moment times moment times g, the moment is positive definite when the neighbours span the space | `C59_rate_is_the_derivative_of_the_density`, `C59_rigid_motion_has_no_rate`, `C59_gc_is_exact_on_linear_pressure` |
| C60 | A body without pressure keeps its shape | on the reference function of C42: all differences of velocity in the body vanish, so viscosity and source vanish; conjugate gradients keep the zeros of a block without source; then no push, no stabilisation; induction over the steps | `C60_pressureless_body_keeps_its_shape`, `C60_scene_in_uniform_motion_is_solved` |
| C61 | Influence reaches no further than a few search radii | on the reference function of C42: each stage reads only particles within one search radius (positions at the beginning of the step), and there are four of them (acceleration, density, push, stabilisation), so agreement on nested sets is propagated stage by stage; implicit mode: the equation of the body is the same in both scenes, and the comparison principle of C57 makes its solution unique | `C61_explicit_step_is_local`, `C61_explicit_body_evolves_alone`, `C61_exact_pressures_of_a_body_are_its_own` |
| C62 | The centre of mass of a free body falls like a single particle | on the reference function of C42: viscosity, pressure and stabilisation are sums of opposite pair forces over a symmetric relation that does not leave the body; induction over the steps | `C62_centre_of_mass_falls_freely` |
| C63 | Rounding does not spoil the number density | the error of every distance, weight and partial sum is bounded in the standard rounding model and propagated through the loop of the code by induction over the neighbour list; coverage of the radius comes from C47, validity of the list from C08 | `C63_density_is_accurate`, `C63_density_after_search_is_accurate` |
| C64 | Short steps follow the equations of motion | on the reference function of C42: the sums are rewritten over a fixed set of candidates, each term is continuous because the weight vanishes at r_e; limits of the matrix inverse and of the equation of state; virtual particles carry no pressure in the explicit mode | `C64_step_follows_the_equations_of_motion` |
| C65 | The time step and the run in floating-point arithmetic | error analysis of norm, quotient and comparison; induction over the steps of a run with the accumulated rounding of the time kept as an invariant; output loop unfolded through the model of Main.cpp | `C65_automatic_step_in_rounded_arithmetic`, `C65_run_finishes_in_rounded_arithmetic`, `C65_output_times_in_rounded_arithmetic` |
| C66 | Options act only where their condition holds | both programs are compared through the reference function of C42 (the settings differ only in the options); induction over the calls for runs; fresh computers (C40) make the hidden parts equal | `C66_unused_options_do_not_matter`, `C66_spp_only_floors_the_density_in_explicit_mode`, `C66_spp_is_idle_without_deficiency`, `C66_ds_is_idle_without_close_pairs`, `C66_ecs_is_idle_at_the_reference_density` |
| C67 | The shipped benchmark generators produce valid input | the generators are modelled as lists of lattice sites and as the XML tree they write; membership in the lists is characterised by inequalities (omega), reading by C30/C45, the grid by C06/C11, densities by C28 and a bijection between particles and lattice, symmetry by C55; success of the first step: a water particle in the top row has at most 3/4 of the reference density (four reflections of the lattice), every water or wall particle is connected with it along the lattice, then C57_step_succeeds | `C67_static_pressure_stays_symmetric`, `C67_central_gravity_stays_symmetric`, `C67_benchmark_files_are_read`, `C67_explicit_programs_refuse_the_files`, `C67_static_pressure_density`, `C67_koshizuka_density`, `C67_zhou_density`, `C67_central_gravity_density`, `C67_check_uses_the_same_n0`, `C67_static_pressure_scene`, `C67_koshizuka_scene`, `C67_zhou_scene`, `C67_central_gravity_scene`, `C67_first_step_has_the_largest_length`, `C67_static_pressure_first_step`, `C67_koshizuka_first_step`, `C67_zhou_first_step`, `C67_first_step_keeps_all_particles` |
| C68 | Rounding errors do not spoil the pressure solver | rounded sums of products have relative error 3 m 2^-50 (induction over the list); one round changes the gap between updated and true residual by at most a factor 1 + 3*2^-50 and one rounding error; induction over the rounds; the stopping test and the triangle inequality; finiteness of all intermediate numbers follows backwards from finite results because infinities and NaN do not disappear. | `C68_watched_residual_is_nearly_the_true_one`, `C68_returned_solution_is_accurate`, `C68_step_pressures_are_accurate` |
| C69 | The evaluation scripts compute what they claim from the program's files | the csv module and the scripts are modelled on characters; reading inverts the writer of C31 for every list of particles; max, min and mean against order-theoretic specifications; sorting of the names by C54; times of the files by C32; the defect by following the density through a step | `C69_density_after_step`, `C69_densities_after_steps`, `C69_edge_curve`, `C69_edge_curve_succeeds`, `C69_zhou_curves`, `C69_check_curves`, `C69_no_roundness_with_spp`, `C69_drops_count_with_spp`, `C69_shape_pictures`, `C69_edge_of_file`, `C69_edge_is_accurate`, `C69_zhou_of_file`, `C69_check_of_file` |
| C70 | Input files are understood character by character, and never in part | a grammar (which texts show which documents) in the specification; the recursive-descent parser is shown to invert every derivation (induction over the grammar, fuel shown irrelevant), to be stable under appending characters (hence prefixes), and the writer to produce derivations; numbers by span lemmas; the run by C45 and C67 | `C70_files_are_read_as_written`, `C70_end_tags_are_not_compared`, `C70_a_file_is_one_document`, `C70_interrupted_files_are_refused_or_complete`, `C70_a_file_without_its_end_is_refused`, `C70_written_trees_are_read`, `C70_generated_files_are_read`, `C70_numbers_in_settings`, `C70_number_of_steps`, `C70_malformed_settings_stop_the_program` |
| C71 | Rounding does not spoil the accelerations | a calculus of numbers known up to a relative error of their size (Mag: value, exact value, size, number of roundings, exponent bound) closed under + - * / sqrt-free operations; every term of the sums is followed through it, sums by induction over the row of the table; C47 gives the row after the search; the sizes exclude overflow and underflow. The whole step chains both stages: the pressures of the step are put back into the state after the first stage, and the second stage is analysed there. At a free surface the computed distance of the virtual neighbour is bounded from below and above by following the code's formula for it, so its viscosity term, c*(u-u), is at most an underflow. | `C71_free_surface_in_double`, `C71_first_stage_is_accurate`, `C71_pressure_gradient_is_accurate`, `C71_equation_of_state_is_accurate`, `C71_wall_velocity_is_accurate`, `C71_first_stage_at_a_free_surface`, `C71_virtual_neighbour_is_near`, `C71_first_stage_of_a_step_is_accurate`, `C71_second_stage_of_a_step_is_accurate`, `C71_step_is_accurate`, `C71_step_in_double`, `C71_first_stage_of_a_step_at_a_free_surface` |
| C72 | double is IEEE 754 and the program in double keeps its laws | bit-level model of binary64 (sign, exponent and fraction fields; operations round the exact rational or root with integer arithmetic); correct rounding from the characterisation of nearest-even rounding on integers scaled by the place of the leading bit; the assumptions of the rounding theorems follow, then their instances; bit-for-bit laws by case analysis on the operands (x-y and y-x are opposite, squares agree), carried through distance, neighbour test and matrix assembly. | `C72_operations_are_correctly_rounded`, `C72_double_satisfies_the_rounding_model`, `C72_no_neighbour_lost_in_double`, `C72_neighbours_symmetric_in_double`, `C72_pressure_matrix_symmetric_in_double`, `C72_action_is_reaction_in_double`, `C72_first_stage_in_double`, `C72_automatic_step_in_double`, `C72_run_finishes_in_double`, `C72_output_times_in_double`, `C72_solver_in_double`, `C72_exceptional_operands`, `C72_infinities`, `C72_zeros_and_constants`, `C72_number_of_outputs_in_double` |
| C73 | double values in files: exact text and correctly rounded reading for every bit pattern | Model/DoubleText: print and read for all bit patterns on top of the decimal texts of C53 (over the rationals) and the rounding of C72; the limit of readable numbers is found by comparing 2^-1022 with six-digit decimals and by divisibility by 5^313 (no six-digit decimal of that size is a binary fraction); files and restarts as in C53 from the cell theorems of C31. | `C73_texts_are_read_correctly_rounded`, `C73_infinite_and_nan_texts`, `C73_text_shows_a_nearest_six_digit_decimal`, `C73_numbers_survive_files`, `C73_files_in_double`, `C73_restart_begins_with_the_same_file` |
| C74 | The computed pressures solve the exact Poisson equation, up to bounds for rounding and solver | magnitude-and-error calculus of C71 (Mag: value, size, error in units of 2^-50, exponent) for coefficients, diagonal sums, speeds and sources; rows of the assembled matrix from the lists of the parallel loop; residual of the exact equation split into residual of the stored equation, errors of coefficients and of the diagonal; C68 bounds the stored residual; the neighbour table stays valid after the first stage by C47 and the triangle inequality. At a free surface the sums of the virtual neighbour are followed too: the unit vector to it has length 1 up to rounding, so the computed distance is r_e/(n0-n+1) up to r_e/2^25, and its coefficient is that of the Laplacian at this distance. | `C74_pressures_of_a_step_in_double`, `C74_pressure_equation_at_a_free_surface`, `C74_pressures_of_a_step_at_a_free_surface`, `C74_pressures_of_a_step_solve_the_poisson_equation`, `C74_free_surface_in_double`, `C74_pressure_equation_is_accurate`, `C74_solutions_solve_the_poisson_equation`, `C74_computed_pressures_solve_the_poisson_equation` |
| C75 | Contraction into fused multiply-adds does not spoil expressions, distance tests, the neighbour search or the motion | fma(x,y,z) is x*y+z rounded once (same rounding lemma as the other operations of Model/Double.lean); induction over the evaluation relation: a fused operation skips one rounding, so its error is below the bound of the unfused one; inner products by induction over the list from the right; the search row from the specification of SearchNeighbor (the list of particle numbers that the loop visits does not depend on distances), C72 and the margin of the search radius. | `C75_inner_products`, `C75_uncontracted_is_a_choice`, `C75_squared_distances`, `C75_interaction_test`, `C75_search_test`, `C75_motion`, `C75_fma_special_values`, `C75_fma_is_correctly_rounded`, `C75_contracted_expressions_are_accurate`, `C75_choices_of_the_compiler_agree`, `C75_contracted_search_loses_no_neighbour` |

`C08`–`C10`, `C12`, `C15`, `C18`, `C40` quantify over *histories* (`Spec/History.lean`): any sequence of `AddParticles`,
`ForwardTime(dt)` and `ForwardTime()` calls from the constructor, with any schedules, including calls that throw.

## 5. Findings about the code (each is a theorem or is visible in one)

* The names in end tags of the XML file are not compared with those of the start tags: `<condition> ... </environment>` is accepted (C70).
* `minStepCountPerOutput="-1"` is accepted as 2^64 - 1 (C70).
* `Grid::Clear` in 3-D runs its y loop to `nx`: counts stay stale if ny > nx, writes leave the array if nx > ny
  (`C05_clear3d_incomplete`, `C05_clear3d_out_of_bounds`). The step theorems for D = 3 therefore assume
  that `Clear` works (cubic box) or D = 2.
* Particles above `MaxX` by less than two blocks are not disabled (C11).
* Disabled particles get the `positionWall` position and U = (x − X)/dt, and `DetermineDt` takes the maximum speed over all
  particles including disabled ones (C20). `DetermineDt` with no particle dereferences `end()` (C13).
* A configuration without `<particles type=...>` dereferences an empty `boost::optional` (C45); every other omission throws.
* `Grid::Exception` is not caught by `main`: the program terminates (C33). `Store` increments the count even when it throws.
* `eps = 0` makes the CG solver report convergence with the initial guess (C25).
* `positionWall` gets the new time, and time starts at 0 regardless of StartTime.
* `InvertMatrix<3>` returns the transposed inverse for non-symmetric matrices (C38); harmless, as the correction matrix is
  symmetric. The correction matrix includes dummy particles although the gradient excludes them.
* The n0 loops exclude index +range; those points have zero weight. n0 = 0 iff r_eByl_0 ≤ 1 (C28).
* The virtual SPP particle contributes nothing to viscosity but does to pressure, breaking momentum conservation (C22).
* With DS, coincident saved positions give 0/0.
* CSV: a CRLF header is rejected, a text without non-empty line and rows with too few cells are undefined behaviour,
  arbitrary integers are accepted as types, a line of blanks before the header counts as header (C30). A negative
  EndTime − StartTime or StartTime is undefined in the cast to `size_t` (C32).
* The search margin suffices for the automatic step if r_eByl_0 ≥ 1.5, nu = 0, static walls (C37); in explicit mode
  MaxDt has no gravity bound.
* Euclidean l_0 spacing does not guarantee that no block overflows; axis-wise spacing does (C06).
* With SPP a length is compared with the pure number 2^-52 (`Computer.hpp:675`): the only place where results depend on the units (C48).
* Files hold six digits (C53), so a restarted run starts from positions rounded to a relative 5e-6; file names sort in time order only up to number 99999 (C54).
* CENTRAL_GRAVITY breaks translation invariance (C35).
* After a 'Too many particle' exception, which particles were already disabled depends on the numbering (C34 only
  claims that both programs throw).
* ECS uses the density error and speed of the beginning of the step, while the right-hand side uses the speed after
  the first stage (`residual` in `Spec/Reference.lean`).
