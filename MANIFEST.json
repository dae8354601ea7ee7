{
 "claims": [
  {
   "property": "C01",
   "status": "proved",
   "theorems": [
    "PetIBM.C01_natural_index_bijective"
   ],
   "note": ""
  },
  {
   "property": "C02",
   "status": "partial",
   "theorems": [
    "PetIBM.C02_ghost_index_partial",
    "PetIBM.C02_false_at_corner_x",
    "PetIBM.C02_false_at_corner_yz"
   ],
   "note": "False at corner ghosts (two C02_false theorems); proved elsewhere."
  },
  {
   "property": "C03",
   "status": "proved",
   "theorems": [
    "PetIBM.C03_range_check",
    "PetIBM.C03_error_code"
   ],
   "note": ""
  },
  {
   "property": "C04",
   "status": "proved",
   "theorems": [
    "PetIBM.C04_packed_index_bijective",
    "PetIBM.C04_unique_owner",
    "PetIBM.C04_pressure_index_bijective"
   ],
   "note": ""
  },
  {
   "property": "C05",
   "status": "proved",
   "theorems": [
    "PetIBM.C05_outside_stays_outside",
    "PetIBM.C05_inside_stays_inside"
   ],
   "note": ""
  },
  {
   "property": "C06",
   "status": "proved",
   "theorems": [
    "PetIBM.C06_counts",
    "PetIBM.C06_points_per_direction"
   ],
   "note": ""
  },
  {
   "property": "C07",
   "status": "proved",
   "theorems": [
    "PetIBM.C07_cells_tile_domain"
   ],
   "note": ""
  },
  {
   "property": "C08",
   "status": "proved",
   "theorems": [
    "PetIBM.C08_staggered_own_direction",
    "PetIBM.C08_staggered_other_directions",
    "PetIBM.C08_ghosts_and_order"
   ],
   "note": ""
  },
  {
   "property": "C09",
   "status": "proved",
   "theorems": [
    "PetIBM.C09_periodic_images"
   ],
   "note": ""
  },
  {
   "property": "C10",
   "status": "proved",
   "theorems": [
    "PetIBM.C10_unknown_direction",
    "PetIBM.C10_cells",
    "PetIBM.C10_accepts",
    "PetIBM.C10_positive_widths",
    "PetIBM.C10_axis_order",
    "PetIBM.C10_axis_data",
    "PetIBM.C10_zero_cells_ub"
   ],
   "note": ""
  },
  {
   "property": "C11",
   "status": "proved",
   "theorems": [
    "PetIBM.C11_periodic_check",
    "PetIBM.C11_setup_3d",
    "PetIBM.C11_error_code",
    "PetIBM.C11_check_alone_3d_false"
   ],
   "note": "Negation proved with a witness: C11_check_alone_3d_false."
  },
  {
   "property": "C12",
   "status": "partial",
   "theorems": [
    "PetIBM.C12_missing_location",
    "PetIBM.C12_table_partial",
    "PetIBM.C12_missing_section",
    "PetIBM.C12_unknown_location_false",
    "PetIBM.C12_unknown_component_false",
    "PetIBM.C12_pressure_key_ub"
   ],
   "note": "C12_table_partial: C12 for files in which every name is known: each slot of the table holds what the user wrote last for it, and every other slot is \"no BC\". What is missing: files with unknown names, for which the claim is false (`C12_unknown_location_false`, `C12_unknown_component_false`, `C12_pressure_key_ub`). Negation proved with a witness: C12_unknown_location_false, C12_unknown_component_false."
  },
  {
   "property": "C13",
   "status": "proved",
   "theorems": [
    "PetIBM.C13_registered_once",
    "PetIBM.C13_paired_with_neighbour",
    "PetIBM.C13_location_range"
   ],
   "note": ""
  },
  {
   "property": "C14",
   "status": "proved",
   "theorems": [
    "PetIBM.C14_dirichlet",
    "PetIBM.C14_boundary_position"
   ],
   "note": ""
  },
  {
   "property": "C15",
   "status": "proved",
   "theorems": [
    "PetIBM.C15_distance_sign",
    "PetIBM.C15_neumann"
   ],
   "note": ""
  },
  {
   "property": "C16",
   "status": "proved",
   "theorems": [
    "PetIBM.C16_convective",
    "PetIBM.C16_initial"
   ],
   "note": ""
  },
  {
   "property": "C17",
   "status": "proved",
   "theorems": [
    "PetIBM.C17_implicit_part_fixed"
   ],
   "note": ""
  },
  {
   "property": "C18",
   "status": "proved",
   "theorems": [
    "PetIBM.C18_dictionary",
    "PetIBM.C18_iteration"
   ],
   "note": ""
  },
  {
   "property": "C19",
   "status": "proved",
   "theorems": [
    "PetIBM.C19_gradient",
    "PetIBM.C19_gradient_exact",
    "PetIBM.C19_false_single_periodic_cell"
   ],
   "note": "Negation proved with a witness: C19_false_single_periodic_cell."
  },
  {
   "property": "C20",
   "status": "proved",
   "theorems": [
    "PetIBM.C20_divergence_transpose"
   ],
   "note": ""
  },
  {
   "property": "C21",
   "status": "partial",
   "theorems": [
    "PetIBM.C21_divergence_is_net_flux_partial",
    "PetIBM.C21_global_balance_partial",
    "PetIBM.C21_false_single_periodic_cell"
   ],
   "note": "C21_divergence_is_net_flux_partial: Missing: periodic directions with one cell. C21_global_balance_partial: Missing: periodic directions with one cell. Negation proved with a witness: C21_false_single_periodic_cell."
  },
  {
   "property": "C22",
   "status": "partial",
   "theorems": [
    "PetIBM.C22_laplacian_of_extended_field_partial",
    "PetIBM.C22_extension_exists",
    "PetIBM.C22_false_two_periodic_cells"
   ],
   "note": "C22_laplacian_of_extended_field_partial: Missing: periodic directions with one or two cells, where it is false. Negation proved with a witness: C22_false_two_periodic_cells."
  },
  {
   "property": "C23",
   "status": "partial",
   "theorems": [
    "PetIBM.C23_consistency_partial",
    "PetIBM.C23_diagonal_dominance_partial",
    "PetIBM.C23_false_single_periodic_cell"
   ],
   "note": "C23_consistency_partial: Missing: as in C22. C23_diagonal_dominance_partial: Missing: periodic directions with a single cell, where this is false (`C23_false_single_periodic_cell`). Negation proved with a witness: C23_false_single_periodic_cell."
  },
  {
   "property": "C24",
   "status": "partial",
   "theorems": [
    "PetIBM.C24_momentum_balance_partial",
    "PetIBM.C24_momentum_balance_closed",
    "PetIBM.C24_periodic_box",
    "PetIBM.C24_uniform_flow_partial",
    "PetIBM.C24_false_uniform_flow"
   ],
   "note": "C24_momentum_balance_partial: Missing: distributions for which `C58_convection_value_partial` does not cover all points. C24_uniform_flow_partial: Missing: the other points, where it is false (`C24_false_uniform_flow`). Negation proved with a witness: C24_false_uniform_flow."
  },
  {
   "property": "C25",
   "status": "proved",
   "theorems": [
    "PetIBM.C25_diagonals",
    "PetIBM.C25_convert_round_trip"
   ],
   "note": ""
  },
  {
   "property": "C26",
   "status": "proved",
   "theorems": [
    "PetIBM.C26_bnHead",
    "PetIBM.C26_order_rejected",
    "PetIBM.C26_bn_flux",
    "PetIBM.C26_bn_mass"
   ],
   "note": ""
  },
  {
   "property": "C27",
   "status": "proved",
   "theorems": [
    "PetIBM.C27_roma",
    "PetIBM.C27_peskin",
    "PetIBM.C27_getKernel",
    "PetIBM.C27_option"
   ],
   "note": ""
  },
  {
   "property": "C28",
   "status": "proved",
   "theorems": [
    "PetIBM.C28_window",
    "PetIBM.C28_interpolation",
    "PetIBM.C28_constraint"
   ],
   "note": ""
  },
  {
   "property": "C29",
   "status": "partial",
   "theorems": [
    "PetIBM.C29_nonperiodic_partial",
    "PetIBM.C29_false_flag",
    "PetIBM.C29_false_ub",
    "PetIBM.C29_false_distance",
    "PetIBM.C29_false_interpolation",
    "PetIBM.C29_periodic_window_partial",
    "PetIBM.C29_false_ub_right"
   ],
   "note": "C29_nonperiodic_partial: Missing: periodic directions, where the claim fails (`C29_false_flag`, `C29_false_ub`, `C29_false_distance`). C29_periodic_window_partial: Missing: the coordinate of a wrapped point is two periods away from the point instead of one (`s / n` is the number of the period), so that the distance is wrong; the other windows, where the arrays are read outside (`C29_false_ub`, `C29_false_ub_right`); the flag (`C29_false_flag`). Negation proved with a witness: C29_false_flag, C29_false_ub, C29_false_distance, C29_false_interpolation, C29_false_ub_right."
  },
  {
   "property": "C30",
   "status": "partial",
   "theorems": [
    "PetIBM.C30_false_reported",
    "PetIBM.C30_false_program",
    "PetIBM.C30_accepted_iff_partial",
    "PetIBM.C30_well_formed_partial",
    "PetIBM.C30_overflow_iff_partial",
    "PetIBM.C30_false_overflow",
    "PetIBM.C30_false_accepted",
    "PetIBM.C30_decimal_integer"
   ],
   "note": "C30_accepted_iff_partial: C30 (part). The exact condition for acceptance and the exact result, for every file and every reader of numbers. It is weaker than the documented format in two points: text behind the coordinates of the first point is not noticed, and a file that ends within its first line takes the number of points for a coordinate. C30_well_formed_partial: C30 (part). Every file of the documented format is accepted with the declared number of points and the coordinates in the file. C30_overflow_iff_partial: C30 (part). The reader accesses memory outside the array for exactly the following files: no point is declared although numbers follow, or any further line (even an empty one) follows behind the declared number of correct lines. Negation proved with a witness: C30_false_reported, C30_false_program, C30_false_overflow, C30_false_accepted."
  },
  {
   "property": "C31",
   "status": "proved",
   "theorems": [
    "PetIBM.C31_packed_index_bijective",
    "PetIBM.C31_owner",
    "PetIBM.C31_out_of_range",
    "PetIBM.C31_created",
    "PetIBM.C31_stencil"
   ],
   "note": ""
  },
  {
   "property": "C32",
   "status": "proved",
   "theorems": [
    "PetIBM.C32_force",
    "PetIBM.C32_partition_independent"
   ],
   "note": ""
  },
  {
   "property": "C33",
   "status": "proved",
   "theorems": [
    "PetIBM.C33_cell",
    "PetIBM.C33_outside",
    "PetIBM.C33_body"
   ],
   "note": ""
  },
  {
   "property": "C34",
   "status": "partial",
   "theorems": [
    "PetIBM.C34_point_probe",
    "PetIBM.C34_pressure_partial",
    "PetIBM.C34_false_behind_last_line"
   ],
   "note": "C34_pressure_partial: C34 for the pressure; partial. Only points strictly behind the first pressure line and before the first line of the last process column in every direction are handled; for the others see `C35_pressure_undefined`. Negation proved with a witness: C34_false_behind_last_line."
  },
  {
   "property": "C35",
   "status": "partial",
   "theorems": [
    "PetIBM.C35_velocity_partial",
    "PetIBM.C35_outside",
    "PetIBM.C35_pressure_partial",
    "PetIBM.C35_pressure_undefined",
    "PetIBM.C35_false_pressure_one_process"
   ],
   "note": "C35_velocity_partial: C35 for the velocity components (partial: the pressure is missing, see `C35_false_pressure_one_process`). Every point from the first grid line to (excluding) the ghost line behind the last one is claimed by exactly one process, all others reject it, and the claiming process finds the two lines around the point (`bl < x ≤ tr`, consecutive) inside its range with one ghost layer. C35_pressure_partial: C35 for the pressure; partial: only points strictly behind the first pressure line and before the first line of the last process column in every direction. Negation proved with a witness: C35_false_pressure_one_process."
  },
  {
   "property": "C36",
   "status": "proved",
   "theorems": [
    "PetIBM.C36_volume_probe",
    "PetIBM.C36_swapped_box"
   ],
   "note": ""
  },
  {
   "property": "C37",
   "status": "proved",
   "theorems": [
    "PetIBM.C37_window",
    "PetIBM.C37_no_window",
    "PetIBM.C37_continued"
   ],
   "note": ""
  },
  {
   "property": "C38",
   "status": "proved",
   "theorems": [
    "PetIBM.C38_sampling_times",
    "PetIBM.C38_errors"
   ],
   "note": ""
  },
  {
   "property": "C39",
   "status": "proved",
   "theorems": [
    "PetIBM.C39_consistent",
    "PetIBM.C39_schemes",
    "PetIBM.C39_rejected",
    "PetIBM.C39_solver_type"
   ],
   "note": ""
  },
  {
   "property": "C40",
   "status": "proved",
   "theorems": [
    "PetIBM.C40_convection_levels",
    "PetIBM.C40_diffusion_levels",
    "PetIBM.C40_first_steps"
   ],
   "note": ""
  },
  {
   "property": "C41",
   "status": "partial",
   "theorems": [
    "PetIBM.C41_right_hand_side",
    "PetIBM.C41_weights_partial",
    "PetIBM.C41_false_first_step"
   ],
   "note": "C41_weights_partial: Missing: the other cases, in which it is false. Negation proved with a witness: C41_false_first_step."
  },
  {
   "property": "C42",
   "status": "partial",
   "theorems": [
    "PetIBM.C42_divergence_is_residual_partial",
    "PetIBM.C42_divergence_free_partial",
    "PetIBM.C42_false_single_periodic_cell"
   ],
   "note": "C42_divergence_is_residual_partial: Missing: periodic directions with one cell, where it is false (`C42_false_single_periodic_cell`), and the pinned system, for which see C43. Example for both theorems: `Props/Poisson.lean`. C42_divergence_free_partial: Missing: as above. Negation proved with a witness: C42_false_single_periodic_cell."
  },
  {
   "property": "C43",
   "status": "partial",
   "theorems": [
    "PetIBM.C43_same_run_partial",
    "PetIBM.C43_runs_partial",
    "PetIBM.C43_same_decoupled_run_partial",
    "PetIBM.C43_same_moving_run_partial",
    "PetIBM.C43_same_coupled_run_partial",
    "PetIBM.C43_pinned_divergence_partial",
    "PetIBM.C43_same_velocity_partial",
    "PetIBM.C43_pinned_system_partial",
    "PetIBM.C43_false_neumann"
   ],
   "note": "C43_same_run_partial: Missing: walls that do not prescribe the normal velocity (for NEUMANN it is false, `C43_false_neumann`), periodic directions with one cell. C43_runs_partial: Missing: as for `C43_pinned_system_partial`. C43_same_decoupled_run_partial: Missing: as above. C43_same_moving_run_partial: Missing: as above. C43_same_coupled_run_partial: Missing: as above. C43_pinned_divergence_partial: Missing: walls that do not prescribe the normal velocity (for NEUMANN see below), periodic directions with one cell. C43_same_velocity_partial: Missing: as in `C62_poisson_system_partial`; NEUMANN conditions for normal components are below. C43_pinned_system_partial: Missing: as above. Negation proved with a witness: C43_false_neumann."
  },
  {
   "property": "C44",
   "status": "partial",
   "theorems": [
    "PetIBM.C44_decoupled",
    "PetIBM.C44_prescribed_motion",
    "PetIBM.C44_coupled_no_slip",
    "PetIBM.C44_coupled_divergence_free_partial",
    "PetIBM.C44_decoupled_divergence_free_partial",
    "PetIBM.C44_rigid_start",
    "PetIBM.C44_untouched_points_at_rest",
    "PetIBM.C44_coupled_pinned_partial",
    "PetIBM.C44_decoupled_pinned_partial",
    "PetIBM.C44_false_single_periodic_cell",
    "PetIBM.C44_false_single_periodic_cell_decoupled"
   ],
   "note": "C44_coupled_divergence_free_partial: Missing: periodic directions with one cell, where it is false (`C44_false_single_periodic_cell`); the pinned system, for which see `Props/Pinned.lean`. C44_decoupled_divergence_free_partial: Missing: as above (`C44_false_single_periodic_cell_decoupled`). C44_coupled_pinned_partial: Missing: as for `C43_same_coupled_run_partial`. C44_decoupled_pinned_partial: Missing: as for `C43_same_run_partial`. Negation proved with a witness: C44_false_single_periodic_cell, C44_false_single_periodic_cell_decoupled."
  },
  {
   "property": "C45",
   "status": "proved",
   "theorems": [
    "PetIBM.C45_counters",
    "PetIBM.C45_run"
   ],
   "note": ""
  },
  {
   "property": "C46",
   "status": "proved",
   "theorems": [
    "PetIBM.C46_saved_steps",
    "PetIBM.C46_zero_period"
   ],
   "note": ""
  },
  {
   "property": "C47",
   "status": "partial",
   "theorems": [
    "PetIBM.C47_saved_state_partial",
    "PetIBM.C47_restart_partial",
    "PetIBM.C47_one_run_partial",
    "PetIBM.C47_interrupted_run_partial",
    "PetIBM.C47_false_convective"
   ],
   "note": "C47_saved_state_partial: Missing: the ghost points at convective boundaries and the last pressure increment. C47_restart_partial: Missing: convective boundaries (see `C47_false_convective`), and linear solvers for the pressure whose result depends on the initial guess, the last increment, which is not saved. C47_one_run_partial: Missing: as in `C47_restart_partial`. C47_interrupted_run_partial: Missing: as in `C47_restart_partial`, and an old file of step `nstart + k` that is not overwritten by the solution (see `C48_false_stale_file`). Negation proved with a witness: C47_false_convective."
  },
  {
   "property": "C48",
   "status": "partial",
   "theorems": [
    "PetIBM.C48_restart_file_partial",
    "PetIBM.C48_false_stale_file"
   ],
   "note": "C48_restart_file_partial: Missing: the other case, in which it is false. Negation proved with a witness: C48_false_stale_file."
  },
  {
   "property": "C49",
   "status": "proved",
   "theorems": [
    "PetIBM.C49_file_names"
   ],
   "note": ""
  },
  {
   "property": "C50",
   "status": "partial",
   "theorems": [
    "PetIBM.C50_visited_steps_partial",
    "PetIBM.C50_false_offset",
    "PetIBM.C50_nonpositive_step"
   ],
   "note": "C50_visited_steps_partial: Missing: other start steps, for which it is false. Negation proved with a witness: C50_false_offset."
  },
  {
   "property": "C51",
   "status": "partial",
   "theorems": [
    "PetIBM.C51_value_partial",
    "PetIBM.C51_linear_partial",
    "PetIBM.C51_inner_exact",
    "PetIBM.C51_one_process_partial",
    "PetIBM.C51_false_corner",
    "PetIBM.C51_false_seam"
   ],
   "note": "C51_value_partial: Missing: values next to walls for which the process does not have the ghost points, see `C51_false_corner` and `C51_false_seam`; and the point used is not the right one for two components in 3D, see C70. C51_linear_partial: Missing: as in `C51_value_partial`. C51_one_process_partial: Missing: edges and corners of the domain, more processes. Negation proved with a witness: C51_false_corner, C51_false_seam."
  },
  {
   "property": "C52",
   "status": "proved",
   "theorems": [
    "PetIBM.C52_convection_in_bounds",
    "PetIBM.C52_vorticity_in_bounds",
    "PetIBM.C52_vorticity_mesh"
   ],
   "note": ""
  },
  {
   "property": "C53",
   "status": "proved",
   "theorems": [
    "PetIBM.C53_last_file_wins",
    "PetIBM.C53_success",
    "PetIBM.C53_missing_file",
    "PetIBM.C53_error_kinds"
   ],
   "note": ""
  },
  {
   "property": "C54",
   "status": "proved",
   "theorems": [
    "PetIBM.C54_solution_round_trip",
    "PetIBM.C54_vectors_restored",
    "PetIBM.C54_append",
    "PetIBM.C54_read_rejected"
   ],
   "note": ""
  },
  {
   "property": "C55",
   "status": "proved",
   "theorems": [
    "PetIBM.C55_adjoint",
    "PetIBM.C55_coupled_adjoint",
    "PetIBM.C55_total_force"
   ],
   "note": ""
  },
  {
   "property": "C56",
   "status": "proved",
   "theorems": [
    "PetIBM.C56_initial_conditions",
    "PetIBM.C56_missing_rejected",
    "PetIBM.C56_unchecked_count"
   ],
   "note": ""
  },
  {
   "property": "C57",
   "status": "proved",
   "theorems": [
    "PetIBM.C57_construction"
   ],
   "note": ""
  },
  {
   "property": "C58",
   "status": "partial",
   "theorems": [
    "PetIBM.C58_convection_value_partial",
    "PetIBM.C58_convection_of_seen",
    "PetIBM.C58_closed_walls",
    "PetIBM.C58_false_periodic_seam"
   ],
   "note": "C58_convection_value_partial: Missing: points next to a wall of another component at the end of the lines that the process owns, see `C58_false_periodic_seam`. Negation proved with a witness: C58_false_periodic_seam."
  },
  {
   "property": "C59",
   "status": "partial",
   "theorems": [
    "PetIBM.C59_decoupled_partial",
    "PetIBM.C59_moving_partial",
    "PetIBM.C59_coupled_partial",
    "PetIBM.C59_momentum_seen_partial",
    "PetIBM.C59_momentum_partial",
    "PetIBM.C59_false_two_periodic_cells"
   ],
   "note": "C59_decoupled_partial: Missing: periodic directions with fewer than three cells (`C59_false_two_periodic_cells`), the first step of a restart with the method of Adams and Bashforth. C59_moving_partial: Missing: periodic directions with fewer than three cells (`C59_false_two_periodic_cells`), the first step of a restart with the method of Adams and Bashforth. C59_coupled_partial: Missing: periodic directions with fewer than three cells (`C59_false_two_periodic_cells`), the first step of a restart with the method of Adams and Bashforth. C59_momentum_seen_partial: Missing: periodic directions with fewer than three cells, where it is false (`C59_false_two_periodic_cells`), the first step of a restart with the method of Adams and Bashforth, which uses a term from the file. Example: `Props/Poisson.lean`. C59_momentum_partial: Missing: the other points next to walls (`C58_false_periodic_seam`), periodic directions with fewer than three cells (`C59_false_two_periodic_cells`), the first step of a restart with the method of Adams and Bashforth. Negation proved with a witness: C59_false_two_periodic_cells."
  },
  {
   "property": "C60",
   "status": "proved",
   "theorems": [
    "PetIBM.C60_start",
    "PetIBM.C60_step_errors",
    "PetIBM.C60_runs"
   ],
   "note": ""
  },
  {
   "property": "C61",
   "status": "partial",
   "theorems": [
    "PetIBM.C61_velocity_system_partial",
    "PetIBM.C61_false_single_periodic_cell"
   ],
   "note": "C61_velocity_system_partial: Missing: periodic directions with one cell, where it is false (`C61_false_single_periodic_cell`). Negation proved with a witness: C61_false_single_periodic_cell."
  },
  {
   "property": "C62",
   "status": "partial",
   "theorems": [
    "PetIBM.C62_coupled_null_vector_partial",
    "PetIBM.C62_coupled_system_partial",
    "PetIBM.C62_constant_pressure_partial",
    "PetIBM.C62_false_single_periodic_cell",
    "PetIBM.C62_poisson_system_partial",
    "PetIBM.C62_total_flux_partial",
    "PetIBM.C62_runs_partial",
    "PetIBM.C62_false_neumann",
    "PetIBM.C62_false_second_order"
   ],
   "note": "C62_coupled_null_vector_partial: Missing: periodic directions with one cell. C62_coupled_system_partial: Missing: as in `C62_poisson_system_partial`. C62_constant_pressure_partial: Missing: periodic directions with one cell, where it is false (`C62_false_single_periodic_cell`). C62_poisson_system_partial: Missing: even orders of the approximate inverse with larger steps, NEUMANN conditions for normal components, periodic directions with one cell, where it is false (`C62_false_second_order`, `C62_false_neumann`, `C62_false_single_periodic_cell`), and higher orders with periodic directions of two cells. C62_total_flux_partial: Missing: periodic directions with one cell. C62_runs_partial: Missing: as in `C62_poisson_system_partial`. Negation proved with a witness: C62_false_single_periodic_cell, C62_false_neumann, C62_false_second_order."
  },
  {
   "property": "C63",
   "status": "partial",
   "theorems": [
    "PetIBM.C63_fields_partial",
    "PetIBM.C63_false_explicit_terms"
   ],
   "note": "C63_fields_partial: Missing: the explicit terms at the grid points, which are wrong if the index of the point has changed (see `C63_false_explicit_terms`). Negation proved with a witness: C63_false_explicit_terms."
  },
  {
   "property": "C64",
   "status": "partial",
   "theorems": [
    "PetIBM.C64_decoupled_start_partial",
    "PetIBM.C64_coupled_start_partial",
    "PetIBM.C64_moving_start_partial",
    "PetIBM.C64_assembled_partial",
    "PetIBM.C64_false_no_points",
    "PetIBM.C64_false_witness",
    "PetIBM.C64_operator_partial"
   ],
   "note": "C64_decoupled_start_partial: Missing: bodies with fewer points than processes (`C64_false_no_points`) and bodies near an end of a periodic mesh (`C29_false_ub`). C64_coupled_start_partial: Missing: as for `C64_decoupled_start_partial`. C64_moving_start_partial: Missing: as for `C64_decoupled_start_partial`. C64_assembled_partial: Missing: bodies with fewer points than processes (`C64_false_no_points`) and bodies near an end of a periodic mesh (`C29_false_ub`). C64_operator_partial: Missing: as in C64. Negation proved with a witness: C64_false_no_points, C64_false_witness."
  },
  {
   "property": "C65",
   "status": "partial",
   "theorems": [
    "PetIBM.C65_initial_state",
    "PetIBM.C65_decoupled",
    "PetIBM.C65_coupled_partial",
    "PetIBM.C65_false_pressure"
   ],
   "note": "C65_coupled_partial: Missing: the configured pressure, see `C65_false_pressure`. Negation proved with a witness: C65_false_pressure."
  },
  {
   "property": "C66",
   "status": "partial",
   "theorems": [
    "PetIBM.C66_datasets_partial",
    "PetIBM.C66_latest",
    "PetIBM.C66_false_close_times"
   ],
   "note": "C66_datasets_partial: Missing: samples closer than that, see `C66_false_close_times`. Negation proved with a witness: C66_false_close_times."
  },
  {
   "property": "C67",
   "status": "partial",
   "theorems": [
    "PetIBM.C67_coupled_shift",
    "PetIBM.C67_coupled_partial",
    "PetIBM.C67_false_coupled"
   ],
   "note": "C67_coupled_partial: Missing: several processes with bodies, see `C67_false_coupled`. The solvers without composite vector need no theorem of their own: `C37_window` and `C37_no_window` hold for all histories, and `pGlobal` is the pressure there. Negation proved with a witness: C67_false_coupled."
  },
  {
   "property": "C68",
   "status": "partial",
   "theorems": [
    "PetIBM.C68_false_overwritten",
    "PetIBM.C68_false_window",
    "PetIBM.C68_complete_windows_partial"
   ],
   "note": "C68_complete_windows_partial: Missing: unfinished windows, `C68_false_window`, and the file of the first execution has to be saved by hand, `C68_false_overwritten`. Negation proved with a witness: C68_false_overwritten, C68_false_window."
  },
  {
   "property": "C69",
   "status": "partial",
   "theorems": [
    "PetIBM.C69_directories_partial",
    "PetIBM.C69_false_overridden"
   ],
   "note": "C69_directories_partial: C69. When no file defines the keys `directory`, `output` and `logs`, the settings hold the directories of the command line (or the default ones below them), and `output` and `logs` have been made, in this order. The condition on the files is what is missing: `C69_false_overridden`. Negation proved with a witness: C69_false_overridden."
  },
  {
   "property": "C70",
   "status": "partial",
   "theorems": [
    "PetIBM.C70_location_partial",
    "PetIBM.C70_shifted",
    "PetIBM.C70_false_x"
   ],
   "note": "C70_location_partial: Missing: the x and y components in 3D, for which it is false (`C70_false_x`, `C70_shifted`). Negation proved with a witness: C70_false_x."
  },
  {
   "property": "C71",
   "status": "proved",
   "theorems": [
    "PetIBM.C71_output",
    "PetIBM.C71_read_error"
   ],
   "note": ""
  },
  {
   "property": "C72",
   "status": "proved",
   "theorems": [
    "PetIBM.C72_grid_file",
    "PetIBM.C72_geometry",
    "PetIBM.C72_data",
    "PetIBM.C72_complete",
    "PetIBM.C72_false_after_restart"
   ],
   "note": "Negation proved with a witness: C72_false_after_restart."
  },
  {
   "property": "C73",
   "status": "proved",
   "theorems": [
    "PetIBM.C73_velocity_is_derivative",
    "PetIBM.C73_only_points",
    "PetIBM.C73_amplitude"
   ],
   "note": ""
  },
  {
   "property": "C74",
   "status": "partial",
   "theorems": [
    "PetIBM.C74_dimension",
    "PetIBM.C74_names",
    "PetIBM.C74_write",
    "PetIBM.C74_run",
    "PetIBM.C74_initial_partial",
    "PetIBM.C74_false_restart",
    "PetIBM.C74_default_names",
    "PetIBM.C74_false_same_name"
   ],
   "note": "C74_initial_partial: C74 (part; for a restart this is not the position at the time of the step, see `C74_false_restart`). At its start the solver writes the bodies as they were read from their files, under the step from which it starts. Negation proved with a witness: C74_false_restart, C74_false_same_name."
  },
  {
   "property": "C75",
   "status": "partial",
   "theorems": [
    "PetIBM.C75_false_read_back",
    "PetIBM.C75_with_count_partial"
   ],
   "note": "C75_with_count_partial: C75 (part). With a first line that gives the number of points the reader returns the points of the file, each number as the reader understands its printed form. Negation proved with a witness: C75_false_read_back."
  },
  {
   "property": "C76",
   "status": "partial",
   "theorems": [
    "PetIBM.C76_steps_partial",
    "PetIBM.C76_false_steps"
   ],
   "note": "C76_steps_partial: C76 (part). The example performs the steps of the Navier-Stokes solver with the explicit Euler scheme for the convection, the implicit one for the diffusion, the first-order approximation of the inverse and the same step size and viscosity, from the same initial state, with the same errors; its file has the velocity and pressure after the last step, and it writes the grid. The number of steps is one more than the example intends. Negation proved with a witness: C76_false_steps."
  },
  {
   "property": "C77",
   "status": "partial",
   "theorems": [
    "PetIBM.C77_decoupled_state_partial",
    "PetIBM.C77_decoupled_restart_partial",
    "PetIBM.C77_decoupled_interrupted_partial",
    "PetIBM.C77_coupled_state_partial",
    "PetIBM.C77_coupled_restart_partial",
    "PetIBM.C77_coupled_interrupted_partial",
    "PetIBM.C77_false_convective"
   ],
   "note": "C77_decoupled_state_partial: Missing: the ghost points at convective boundaries and the last increments of pressure and forces. C77_decoupled_restart_partial: Missing: convective boundaries (the ghost values are not saved, see `C77_false_convective`), and linear solvers for pressure and forces whose result depends on the initial guess, the last increment, which is not saved. C77_decoupled_interrupted_partial: Missing: as in `C77_decoupled_restart_partial`, and an old file of step `nstart + k` that is not overwritten by the solution (see `C48_false_stale_file`). C77_coupled_state_partial: Missing: the ghost points at convective boundaries and the last increment of pressure and forces. C77_coupled_restart_partial: Missing: convective boundaries, and linear solvers for pressure and forces whose result depends on the initial guess, the last increment, which is not saved. C77_coupled_interrupted_partial: Missing: as in `C77_coupled_restart_partial`, and an old file of step `nstart + k` that is not overwritten by the solution (see `C48_false_stale_file`). Negation proved with a witness: C77_false_convective."
  },
  {
   "property": "C78",
   "status": "proved",
   "theorems": [
    "PetIBM.C78_decoupled_ends",
    "PetIBM.C78_decoupled",
    "PetIBM.C78_coupled_ends",
    "PetIBM.C78_coupled"
   ],
   "note": ""
  },
  {
   "property": "C79",
   "status": "partial",
   "theorems": [
    "PetIBM.C79_bodies_partial",
    "PetIBM.C79_accepted",
    "PetIBM.C79_false_reported",
    "PetIBM.C79_first_wrong_entry",
    "PetIBM.C79_missing_list"
   ],
   "note": "C79_bodies_partial: Missing: that every other configuration is reported as an error, which is false (`C79_false_reported`, `C30_false_program`). Negation proved with a witness: C79_false_reported."
  },
  {
   "property": "C80",
   "status": "proved",
   "theorems": [
    "PetIBM.C80_parameters",
    "PetIBM.C80_errors"
   ],
   "note": ""
  },
  {
   "property": "C81",
   "status": "partial",
   "theorems": [
    "PetIBM.C81_poisson_symmetric_partial",
    "PetIBM.C81_poisson_definite_partial",
    "PetIBM.C81_velocity_weighted_partial",
    "PetIBM.C81_velocity_uniform_partial",
    "PetIBM.C81_forces_partial",
    "PetIBM.C81_moving_forces_partial",
    "PetIBM.C81_coupled_symmetric_partial",
    "PetIBM.C81_coupled_definite_partial",
    "PetIBM.C81_false_neumann",
    "PetIBM.C81_false_stretched",
    "PetIBM.C81_false_second_order"
   ],
   "note": "C81_poisson_symmetric_partial: Missing: NEUMANN conditions for normal components (`C81_false_neumann`); for orders above one, periodic directions with less than three cells. C81_poisson_definite_partial: Missing: as in `C62_poisson_system_partial`. C81_velocity_weighted_partial: Missing: periodic directions with less than three cells. C81_velocity_uniform_partial: Missing: meshes that are not uniform (`C81_false_stretched`), periodic directions with less than three cells. C81_forces_partial: Missing: for orders above one, periodic directions with less than three cells; for the definiteness, orders that are not good. C81_moving_forces_partial: Missing: as above. C81_coupled_symmetric_partial: Missing: as in `C81_poisson_symmetric_partial`. C81_coupled_definite_partial: Missing: NEUMANN conditions for normal components, orders that are not good. Negation proved with a witness: C81_false_neumann, C81_false_stretched, C81_false_second_order."
  },
  {
   "property": "C82",
   "status": "partial",
   "theorems": [
    "PetIBM.C82_processes_partial",
    "PetIBM.C82_continued_partial",
    "PetIBM.C82_false_open_walls",
    "PetIBM.C82_false_restart"
   ],
   "note": "C82_processes_partial: C82. Two runs of one configuration with different numbers of processes, from the initial conditions or from one file: as long as every process has the wall velocities that its convective terms need (for example if nothing flows through the walls), the linear systems are solved exactly and no NEUMANN condition acts on a normal velocity, the velocities agree at every point and at every step, and the pressures up to a constant. What is missing: other walls (see `C82_false_open_walls`), restarts with a scheme that keeps the explicit term of the previous step (see `C82_false_restart`), meshes with fewer than three cells in a periodic direction. C82_continued_partial: Missing as there. Negation proved with a witness: C82_false_open_walls, C82_false_restart."
  },
  {
   "property": "C83",
   "status": "partial",
   "theorems": [
    "PetIBM.C83_convection_partial",
    "PetIBM.C83_pressure_partial",
    "PetIBM.C83_viscosity_partial",
    "PetIBM.C83_run_partial",
    "PetIBM.C83_false_stretched"
   ],
   "note": "C83_convection_partial: Missing: stretched meshes (`C83_false_stretched`) and open sides, through which energy is carried. C83_pressure_partial: Missing: periodic directions with one cell (`C21`). C83_viscosity_partial: Missing: periodic directions with less than three cells. C83_run_partial: C83. In a run with an exact Poisson solver, uniform mesh and closed or periodic sides, the convective term computed from the velocity after any step does no work on it. Negation proved with a witness: C83_false_stretched."
  },
  {
   "property": "C84",
   "status": "partial",
   "theorems": [
    "PetIBM.C84_balance_partial",
    "PetIBM.C84_decay_partial",
    "PetIBM.C84_bounded_partial",
    "PetIBM.C84_growth_partial",
    "PetIBM.C84_uniform_growth_partial",
    "PetIBM.C84_false_explicit_diffusion",
    "PetIBM.C84_false_convection",
    "PetIBM.C84_decay_pinned_partial"
   ],
   "note": "C84_balance_partial: Missing: as for C59; higher orders; other schemes (`C84_false_explicit`). C84_decay_partial: Missing: as for `C84_balance_partial`. C84_bounded_partial: C84. Without convective terms the kinetic energy stays bounded in runs of any length, whatever the time step: by the energies of velocity and pressure gradient after the first step or, for the implicit Euler scheme, in the beginning. C84_growth_partial: Missing: as for `C84_balance_partial`, and the Crank-Nicolson scheme. C84_uniform_growth_partial: Missing: as above. C84_decay_pinned_partial: Missing: as for `C84_balance_partial`, but for the pinned system. Negation proved with a witness: C84_false_explicit_diffusion, C84_false_convection."
  },
  {
   "property": "C85",
   "status": "partial",
   "theorems": [
    "PetIBM.C85_object_partial",
    "PetIBM.C85_configuration",
    "PetIBM.C85_false_missing_file",
    "PetIBM.C85_unknown_type",
    "PetIBM.C85_same_run_partial",
    "PetIBM.C85_iterations_file_partial",
    "PetIBM.C85_diverged_partial",
    "PetIBM.C85_decoupled_same_run_partial",
    "PetIBM.C85_moving_matrix",
    "PetIBM.C85_names",
    "PetIBM.C85_coupled_same_run_partial",
    "PetIBM.C85_moving_same_run_partial"
   ],
   "note": "C85_object_partial: C85 (part; false if the configuration file cannot be read, see `C85_false_missing_file`). A solver whose type is known and whose configuration file can be read is created and takes its matrix; it then solves with this matrix under its own name, reports the numbers of the last solve, and stops with an error when the iteration diverges. C85_same_run_partial: C85. With usable solvers a run of the flow solver with its objects is the run in which the systems are solved by functions of matrix, initial guess and right-hand side that fail when the iteration diverges: the same result or error, the same fields and files. C85_iterations_file_partial: C85. The file `iterations-<startStep>.txt` of a run that succeeds has one line for each of the `nt` steps: the step, and the numbers of iterations and the residuals of the two solves of exactly this step. Both have converged. An older file of this name is replaced, no other text file changes. C85_diverged_partial: C85. If in some step of a run one of the two systems diverges, the run ends with the error `PETSC_ERR_CONV_FAILED`. C85_decoupled_same_run_partial: C85. With usable solvers a run of the decoupled solver with its objects is the run in which the systems are solved by functions that fail when the iteration diverges: the same result or error, the same fields and files, but for the file of the numbers of iterations. C85_coupled_same_run_partial: Missing: as for `C85_object_partial`. C85_moving_same_run_partial: Missing: as for `C85_object_partial`. Negation proved with a witness: C85_false_missing_file."
  },
  {
   "property": "C86",
   "status": "partial",
   "theorems": [
    "PetIBM.C86_steady_partial",
    "PetIBM.C86_uniform_partial",
    "PetIBM.C86_false_first_step",
    "PetIBM.C86_false_processes"
   ],
   "note": "C86_steady_partial: C86. A flow that satisfies the discretised equations, without change in time, stays: if the mass of every cell and the momentum of every velocity point are balanced, the velocity never changes and the pressure only by a constant, with every number of processes and every order of the approximate inverse. What is missing: Adams-Bashforth terms that do not vanish, because the first step gives them the weight 3/2 (`C86_false_first_step`); Neumann conditions for normal components; inexact solvers. C86_uniform_partial: C86. A uniform flow that the boundary conditions allow stays uniform, with every scheme, if it is along an axis or the processes have the walls of their points. What is missing: oblique flows through walls with several processes (`C86_false_processes`). Negation proved with a witness: C86_false_first_step, C86_false_processes."
  },
  {
   "property": "C87",
   "status": "partial",
   "theorems": [
    "PetIBM.C87_ends",
    "PetIBM.C87_run",
    "PetIBM.C87_state_partial",
    "PetIBM.C87_restart_partial",
    "PetIBM.C87_interrupted_partial",
    "PetIBM.C87_false_incremental"
   ],
   "note": "C87_state_partial: Missing: the bodies, which are as at time 0 until the first step, the ghost points at convective boundaries and the last increments of pressure and forces. C87_restart_partial: Missing: motions that move the points from where they are (see `C87_false_incremental`), convective boundaries (the ghost values are not saved, see `C77_false_convective`), and linear solvers for pressure and forces whose result depends on the initial guess, the last increment, which is not saved. C87_interrupted_partial: Missing: as in `C87_restart_partial`, the body files of the step of the restart (see `C74_false_restart`), and an old file of step `nstart + k` that is not overwritten by the solution (see `C48_false_stale_file`). Negation proved with a witness: C87_false_incremental."
  },
  {
   "property": "C88",
   "status": "partial",
   "theorems": [
    "PetIBM.C88_delta_partial",
    "PetIBM.C88_decoupled_partial",
    "PetIBM.C88_continued_partial",
    "PetIBM.C88_rigid_partial",
    "PetIBM.C88_false_stretched",
    "PetIBM.C88_false_restart",
    "PetIBM.C88_coupled_partial",
    "PetIBM.C88_coupled_continued_partial"
   ],
   "note": "C88_delta_partial: C88. The delta operator of two distributions of the same bodies and the same mesh: for every component at every point of every body, the row holds the same value for every velocity point, if the points of a body lie in cells of the same widths. What is missing: other meshes (see `C88_false_stretched`). C88_decoupled_partial: C88. Two runs of one configuration of the decoupled solver with different numbers of processes, from the initial conditions or, with one body, from one file: under the hypotheses of C82, and if the points of a body lie in cells of the same widths and the force system is solved exactly, the velocities agree at every point and every step, and the pressures up to a constant; if the points of the bodies are independent, the forces agree too, and so do the total forces on the bodies. What is missing: other meshes (see `C88_false_stretched`), restarts with several bodies (see `C88_false_restart`), and what is missing in C82. C88_continued_partial: Missing as there. C88_rigid_partial: Missing as above. C88_coupled_partial: C88. Two runs of one configuration of the coupled solver with different numbers of processes, from the initial conditions or, with one body, from one file, the composite system given to PETSc and solved exactly: under the hypotheses of C82, and if the points of a body lie in cells of the same widths, the velocities agree at every point and every step; if no forces at the points spread to the gradient of a pressure, the pressures agree up to a constant and the forces agree, and so do the total forces on the bodies. What is missing: as in `C88_decoupled_partial`, and the solvers of AmgX. C88_coupled_continued_partial: Missing as there. Negation proved with a witness: C88_false_stretched, C88_false_restart."
  },
  {
   "property": "C89",
   "status": "partial",
   "theorems": [
    "PetIBM.C89_set_up_partial",
    "PetIBM.C89_run_partial",
    "PetIBM.C89_missing_entry",
    "PetIBM.C89_inconsistent",
    "PetIBM.C89_missing_section",
    "PetIBM.C89_too_many",
    "PetIBM.C89_complete",
    "PetIBM.C89_false_errors"
   ],
   "note": "C89_set_up_partial: C89. For a mesh section and boundary conditions that describe a mesh and its walls, and a process grid with points for every process, all processes construct complete mesh and boundary objects; their lines, widths, types and values are those of the file. What is missing: errors for all other configurations (`C89_false_errors`). C89_run_partial: C89. Such a configuration with readable parameters and initial velocities runs to its last step, whatever is on the disk, if the linear solvers return something. What is missing: errors for all other configurations (`C89_false_errors`). Negation proved with a witness: C89_false_errors."
  },
  {
   "property": "C90",
   "status": "proved",
   "theorems": [
    "PetIBM.C90_grid_file",
    "PetIBM.C90_processes",
    "PetIBM.C90_undefined"
   ],
   "note": ""
  },
  {
   "property": "C91",
   "status": "partial",
   "theorems": [
    "PetIBM.C91_no_work_partial",
    "PetIBM.C91_balance_partial",
    "PetIBM.C91_decay_partial",
    "PetIBM.C91_bounded_partial",
    "PetIBM.C91_decay_pinned_partial"
   ],
   "note": "C91_no_work_partial: Missing: periodic directions with one cell (`C21`); the pinned system, for which see `Props/Pinned.lean`. C91_balance_partial: Missing: as for C84; the pinned system, for which see `Props/Pinned.lean`. C91_decay_partial: Missing: as for `C91_balance_partial`. C91_bounded_partial: C91. So the kinetic energy stays bounded in runs of any length. A run from step 0 starts without forces and pressure (`C65`), hence with the implicit Euler scheme it never exceeds the kinetic energy of the initial velocity. C91_decay_pinned_partial: Missing: as there, but for the pinned system."
  },
  {
   "property": "C92",
   "status": "partial",
   "theorems": [
    "PetIBM.C92_balance_partial",
    "PetIBM.C92_bounded_partial",
    "PetIBM.C92_bounded_pinned_partial"
   ],
   "note": "C92_balance_partial: Missing: viscosity and convection; higher orders; periodic directions with one cell; the pinned system, for which see `Props/Pinned.lean`. C92_bounded_partial: C92. So in runs of any length the kinetic energy stays bounded, whatever the time step, and so does the sum of the energies of all changes of the velocity. C92_bounded_pinned_partial: Missing: as there, but for the pinned system."
  },
  {
   "property": "C93",
   "status": "partial",
   "theorems": [
    "PetIBM.C93_force_system_partial",
    "PetIBM.C93_composite_system_partial",
    "PetIBM.C93_decoupled_runs_partial",
    "PetIBM.C93_coupled_runs_partial",
    "PetIBM.C93_false_blocked",
    "PetIBM.C93_moving_runs_partial",
    "PetIBM.C93_false_collision"
   ],
   "note": "C93_force_system_partial: Missing: the other orders. C93_composite_system_partial: Missing: the other orders, NEUMANN conditions for normal components. C93_decoupled_runs_partial: Missing: as in `C62_poisson_system_partial`. C93_coupled_runs_partial: Missing: as in `C62_poisson_system_partial`. C93_moving_runs_partial: Missing: as in `C62_poisson_system_partial`. Negation proved with a witness: C93_false_blocked, C93_false_collision."
  },
  {
   "property": "C94",
   "status": "partial",
   "theorems": [
    "PetIBM.C94_converged_partial",
    "PetIBM.C94_balanced_partial",
    "PetIBM.C94_decoupled_partial",
    "PetIBM.C94_moving_partial",
    "PetIBM.C94_coupled_partial",
    "PetIBM.C94_false_implicit_convection",
    "PetIBM.C94_converged_pinned_partial"
   ],
   "note": "C94_converged_partial: Missing: periodic directions with fewer than three cells; the pinned system, for which see `Props/Pinned.lean`. C94_balanced_partial: Missing: as for `C94_converged_partial`. C94_decoupled_partial: Missing: as for `C94_converged_partial`. C94_moving_partial: Missing: as for `C94_converged_partial`. C94_coupled_partial: Missing: as for `C94_converged_partial`. C94_converged_pinned_partial: Missing: periodic directions with fewer than three cells. Negation proved with a witness: C94_false_implicit_convection."
  },
  {
   "property": "C95",
   "status": "partial",
   "theorems": [
    "PetIBM.C95_step_partial",
    "PetIBM.C95_decoupled_partial",
    "PetIBM.C95_moving_partial",
    "PetIBM.C95_coupled_partial",
    "PetIBM.C95_diffusion_partial",
    "PetIBM.C95_false_explicit_diffusion"
   ],
   "note": "C95_step_partial: Missing: periodic directions with fewer than three cells, the first step of a restart with the method of Adams and Bashforth, and the velocity after the projection, which has no such bounds. C95_decoupled_partial: Missing: as for `C95_step_partial`. Example run: `box_decoupled`. C95_moving_partial: Missing: as for `C95_step_partial`. Example run: `box_moving`. C95_coupled_partial: Missing: as for `C95_step_partial`. Example run: `box_coupled`. C95_diffusion_partial: Missing: the method of Adams and Bashforth, otherwise as for `C95_step_partial`. Negation proved with a witness: C95_false_explicit_diffusion."
  },
  {
   "property": "C96",
   "status": "partial",
   "theorems": [
    "PetIBM.C96_volume_partial",
    "PetIBM.C96_point_partial",
    "PetIBM.C96_kinds",
    "PetIBM.C96_missing",
    "PetIBM.C96_unknown_type",
    "PetIBM.C96_unknown_field",
    "PetIBM.C96_unknown_direction",
    "PetIBM.C96_unknown_viewer",
    "PetIBM.C96_unopened",
    "PetIBM.C96_absent_field",
    "PetIBM.C96_each",
    "PetIBM.C96_false_unknown_names"
   ],
   "note": "C96_volume_partial: C96 for sub-volumes; partial. An entry whose names are known, whose limits are in order and whose file can be created gives a probe of the field in the box, with the times, the window and the format it asks for; the file has the grid lines of the box and the index set. What is missing: entries with unknown names, see `C96_unknown_type`, `C96_unknown_field`, `C96_unknown_direction`, `C96_unknown_viewer` and `C96_false_unknown_names`, and files that cannot be created, see `C96_unopened`. C96_point_partial: C96 for points; partial. An entry whose names are known, whose point is inside and whose file can be created gives a probe of the field at the point: exactly one process interpolates, and the file is empty. What is missing: as in `C96_volume_partial`; points outside, see `C97_outside`. Negation proved with a witness: C96_false_unknown_names."
  },
  {
   "property": "C97",
   "status": "partial",
   "theorems": [
    "PetIBM.C97_files_partial",
    "PetIBM.C97_unopened",
    "PetIBM.C97_outside",
    "PetIBM.C97_false_shared_file"
   ],
   "note": "C97_files_partial: C97, partial. A run with any number of probes whose entries are in order, whose files can be created and whose paths are all different, over any sequence of time steps: no probe stops the run, each file is the answer to its entry (grid lines, index set and the samples or means for a sub-volume; one line with an interpolated value for each step that is due for a point), and no other file is touched. What is missing: probes that share a file, see `C97_false_shared_file`; points outside of the lines, see `C97_outside`; entries with unknown names and files that cannot be created, see C96 and `C97_unopened`. Negation proved with a witness: C97_false_shared_file."
  },
  {
   "property": "C98",
   "status": "proved",
   "theorems": [
    "PetIBM.C98_units",
    "PetIBM.C98_kernels",
    "PetIBM.C98_units_bodies",
    "PetIBM.C98_units_moving",
    "PetIBM.C98_units_coupled"
   ],
   "note": ""
  },
  {
   "property": "C99",
   "status": "proved",
   "theorems": [
    "PetIBM.C99_section",
    "PetIBM.C99_mesh",
    "PetIBM.C99_parameters",
    "PetIBM.C99_run",
    "PetIBM.C99_run_decoupled",
    "PetIBM.C99_run_coupled",
    "PetIBM.C99_run_moving"
   ],
   "note": ""
  },
  {
   "property": "C100",
   "status": "proved",
   "theorems": [
    "PetIBM.C100_independent",
    "PetIBM.C100_files",
    "PetIBM.C100_unreadable",
    "PetIBM.C100_again",
    "PetIBM.C100_nonpositive",
    "PetIBM.C100_after_run"
   ],
   "note": ""
  },
  {
   "property": "C101",
   "status": "partial",
   "theorems": [
    "PetIBM.C101_step_partial",
    "PetIBM.C101_run_partial",
    "PetIBM.C101_decoupled_partial",
    "PetIBM.C101_moving_partial",
    "PetIBM.C101_coupled_partial",
    "PetIBM.C101_reported_partial",
    "PetIBM.C101_reported_moving_partial",
    "PetIBM.C101_reported_coupled_partial",
    "PetIBM.C101_false_two_periodic_cells"
   ],
   "note": "C101_step_partial: Missing: periodic directions with fewer than three cells (`C101_false_two_periodic_cells`), the first step of a restart with the method of Adams and Bashforth, whose oldest term comes from a file. C101_run_partial: Missing: periodic directions with fewer than three cells (`C101_false_two_periodic_cells`). C101_decoupled_partial: Missing: periodic directions with fewer than three cells (`C101_false_two_periodic_cells`), the first step of a restart with the method of Adams and Bashforth. C101_moving_partial: Missing: as for `C101_decoupled_partial`. C101_coupled_partial: Missing: as for `C101_decoupled_partial`. C101_reported_partial: Missing: as for `C101_decoupled_partial`; bodies near the sides of the domain or where the mesh is stretched. C101_reported_moving_partial: Missing: as for `C101_reported_partial`. C101_reported_coupled_partial: Missing: as for `C101_reported_partial`. Negation proved with a witness: C101_false_two_periodic_cells."
  },
  {
   "property": "C102",
   "status": "partial",
   "theorems": [
    "PetIBM.C102_symmetry_pinned_partial",
    "PetIBM.C102_axes_partial",
    "PetIBM.C102_symmetry_partial"
   ],
   "note": "C102_symmetry_pinned_partial: Missing: as in `C102_axes_partial`, but for the pinned system; fluxes that do not cancel. C102_axes_partial: Missing: periodic axes of opposite orientation, other walls, restarts, the Poisson solver that pins a cell, fewer than three cells in a periodic direction. C102_symmetry_partial: Missing as in `C102_axes_partial`."
  },
  {
   "property": "C103",
   "status": "proved",
   "theorems": [
    "PetIBM.C103_names",
    "PetIBM.C103_round_trip",
    "PetIBM.C103_answers",
    "PetIBM.C103_written",
    "PetIBM.C103_locations"
   ],
   "note": ""
  },
  {
   "property": "C104",
   "status": "partial",
   "theorems": [
    "PetIBM.C104_couette_partial",
    "PetIBM.C104_configured_partial"
   ],
   "note": "C104_couette_partial: Missing: periodic directions with fewer than three cells, Neumann conditions for normal components, solvers that are not exact. C104_configured_partial: Missing: as in `C104_couette_partial`."
  },
  {
   "property": "C105",
   "status": "partial",
   "theorems": [
    "PetIBM.C105_plane_flow_partial",
    "PetIBM.C105_plane_flow_pinned_partial"
   ],
   "note": "C105_plane_flow_partial: Missing: other walls, restarts, the Poisson solver that pins a cell (see `C105_plane_flow_pinned_partial`), fewer than three cells in a periodic direction, bodies. C105_plane_flow_pinned_partial: Missing: as in `C105_plane_flow_partial`, but for the pinned system; fluxes that do not cancel."
  },
  {
   "property": "C106",
   "status": "partial",
   "theorems": [
    "PetIBM.C106_superposition_partial",
    "PetIBM.C106_stability_partial",
    "PetIBM.C106_decoupled_partial",
    "PetIBM.C106_rigid_partial",
    "PetIBM.C106_coupled_partial"
   ],
   "note": "C106_superposition_partial: Missing: restarts, NEUMANN conditions for normal velocities, a single cell in a periodic direction; for bodies see `C106_decoupled_partial` and `C106_coupled_partial`. C106_stability_partial: Missing: as in `C106_superposition_partial`, and the pinned Poisson system, other orders of `BN`, fewer than three cells in a periodic direction. C106_decoupled_partial: Missing: as in `C106_superposition_partial`. C106_rigid_partial: Missing: as in `C106_superposition_partial`, and points that are not independent. C106_coupled_partial: Missing: as in `C106_superposition_partial`, and the solvers of AmgX."
  },
  {
   "property": "C107",
   "status": "partial",
   "theorems": [
    "PetIBM.C107_solvers_partial",
    "PetIBM.C107_types_partial",
    "PetIBM.C107_decoupled_partial",
    "PetIBM.C107_rigid_partial",
    "PetIBM.C107_coupled_partial"
   ],
   "note": "C107_solvers_partial: Missing: NEUMANN conditions for normal velocities and single cells in periodic directions, for which the systems may have other solutions (`C62_false_neumann`, `C62_false_single_periodic_cell`). C107_types_partial: Missing: as in `C107_solvers_partial` and `C43_same_run_partial`. C107_decoupled_partial: Missing: as in `C107_solvers_partial`. C107_rigid_partial: Missing: as in `C107_solvers_partial`, and points that are not independent: their forces are spread again where the bodies are in the next step. C107_coupled_partial: Missing: as in `C107_solvers_partial`, and the solvers of AmgX."
  },
  {
   "property": "C108",
   "status": "partial",
   "theorems": [
    "PetIBM.C108_residual_partial",
    "PetIBM.C108_step_partial"
   ],
   "note": "C108_residual_partial: Missing: periodic directions with one cell. C108_step_partial: Missing: as in `C108_residual_partial`."
  },
  {
   "property": "C109",
   "status": "partial",
   "theorems": [
    "PetIBM.C109_unchanged_iff",
    "PetIBM.C109_mesh",
    "PetIBM.C109_body_partial",
    "PetIBM.C109_percent",
    "PetIBM.C109_false_percent",
    "PetIBM.C109_bodies_partial",
    "PetIBM.C109_solution",
    "PetIBM.C109_solver"
   ],
   "note": "C109_body_partial: C109 (part). The text that a body prints, for every distribution: it has the name of the file, the dimension and the number of points; and the printed ranges, one for each process, put every point on exactly one process, its owner. What is missing: names of bodies and files with a percent sign or other special characters, see `C109_false_percent`. C109_bodies_partial: C109 (part). All bodies together: first their number and their names, then the text of each of them, in the order of the configuration. What is missing: as for `C109_body_partial`. Negation proved with a witness: C109_false_percent."
  },
  {
   "property": "C110",
   "status": "partial",
   "theorems": [
    "PetIBM.C110_navierstokes",
    "PetIBM.C110_decoupled",
    "PetIBM.C110_moving",
    "PetIBM.C110_coupled_partial",
    "PetIBM.C110_false_coupled_again",
    "PetIBM.C110_schemes",
    "PetIBM.C110_order",
    "PetIBM.C110_createBn",
    "PetIBM.C110_false_createBn",
    "PetIBM.C110_volume_probe",
    "PetIBM.C110_point_probe",
    "PetIBM.C110_false_probe_destructor"
   ],
   "note": "C110_coupled_partial: Missing: the second call of `destroy`. Negation proved with a witness: C110_false_coupled_again, C110_false_createBn, C110_false_probe_destructor."
  }
 ]
}