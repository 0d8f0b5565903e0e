{
 "claims": [
  {
   "property": "C01",
   "status": "proved",
   "theorems": [
    "Verif.numbering_bijective"
   ],
   "note": ""
  },
  {
   "property": "C02",
   "status": "proved",
   "theorems": [
    "Verif.increments_reach_solved",
    "Verif.pack_spec",
    "Verif.pack_after_increment",
    "Verif.back_to_solution_vector"
   ],
   "note": "prescribed (tag 0) nodes keep the value they already hold; ghosts and periodic copies are set by ApplyBC"
  },
  {
   "property": "C03",
   "status": "partial",
   "theorems": [
    "Verif.applyBC_enforces_partial",
    "Verif.applyBC_idempotent_partial",
    "Verif.increments_reach_solved",
    "Verif.applyBC_stale_corner"
   ],
   "note": "holds when east-periodic Vx nodes agree with their west twin before the call (always so inside ExtractSolutions2); applyBC_stale_corner shows the code violates the property otherwise"
  },
  {
   "property": "C04",
   "status": "proved",
   "theorems": [
    "Verif.decomposition_partition"
   ],
   "note": ""
  },
  {
   "property": "C05",
   "status": "proved",
   "theorems": [
    "Verif.assembly_merged",
    "Verif.assembly_thread_independent",
    "Verif.assembly_hyps_u"
   ],
   "note": "one matrix block per call; rows are arbitrary coefficient lists, equation numbers injective on solved nodes (discharged for Vx by assembly_hyps_u)"
  },
  {
   "property": "C06",
   "status": "partial",
   "theorems": [
    "Verif.assembly_buffers_fit_partial",
    "Verif.assembly_buffer_overflow"
   ],
   "note": "the property is false for the code: assembly_buffer_overflow is a 10x8 grid on 16 threads; it holds for grids of at least 6x6 vertices with 4 (n-1)^2 <= number of cells"
  },
  {
   "property": "C07",
   "status": "proved",
   "theorems": [
    "Verif.elimination_preserves_equation"
   ],
   "note": ""
  },
  {
   "property": "C08",
   "status": "proved",
   "theorems": [
    "Verif.x_row_stress_balance",
    "Verif.x_row_stress_balance_periodic",
    "Verif.z_row_stress_balance",
    "Verif.x_row_stress_west",
    "Verif.x_row_stress_east",
    "Verif.z_row_stress_south",
    "Verif.z_row_stress_north",
    "Verif.x_stabilisation",
    "Verif.z_stabilisation"
   ],
   "note": "isotropic Picard rows (interior, wall-adjacent, periodic and stress boundaries); for the Newton rows see C119"
  },
  {
   "property": "C09",
   "status": "proved",
   "theorems": [
    "Verif.rigid_no_strain",
    "Verif.rigid_no_force_x",
    "Verif.rigid_no_force_z"
   ],
   "note": "rows away from walls and air, no free-surface stabilisation (which is proportional to velocity by design)"
  },
  {
   "property": "C10",
   "status": "proved",
   "theorems": [
    "Verif.stokes_velocity_block_symmetric",
    "Verif.gradient_is_minus_divergence_transpose"
   ],
   "note": "interior solved nodes, no periodic sides, no stress boundary nodes; isotropic D11 = D22 vanishing in air"
  },
  {
   "property": "C100",
   "status": "proved",
   "theorems": [
    "Verif.Flow.axial_experiment",
    "Verif.Flow.shear_experiment",
    "Verif.Flow.uncorrected",
    "Verif.Flow.viscosity_unit_free",
    "Verif.Flow.peierls_axial_experiment",
    "Verif.Flow.peierls_unit_free"
   ],
   "note": "the constants of the tables are parameters; the Peierls law in its regularised form"
  },
  {
   "property": "C101",
   "status": "partial",
   "theorems": [
    "Verif.Flow.linear_reads_diffusion_partial",
    "Verif.Flow.linear_one_clobbers",
    "Verif.Flow.reference_viscosity_met",
    "Verif.Flow.reference_stress_value",
    "Verif.Flow.reference_stress_not_met",
    "Verif.Flow.peierls_correction_not_cancelled"
   ],
   "note": "false for diffusion law 1 (overwrites the dislocation law, unscaled), for the user-defined law with reference stress, and for cancelling the correction of a Peierls law"
  },
  {
   "property": "C102",
   "status": "proved",
   "theorems": [
    "Verif.Resid.defect_is_scaled_residual"
   ],
   "note": "sums in exact arithmetic"
  },
  {
   "property": "C103",
   "status": "partial",
   "theorems": [
    "Verif.Resid.reported_bounds_partial",
    "Verif.Resid.small_residuals_reported",
    "Verif.Resid.uncounted_ignored",
    "Verif.Resid.wall_equation_unreported",
    "Verif.Resid.small_grid_stops"
   ],
   "note": "false for the momentum equations: the two outermost solved rows (Vx) and columns (Vz) at each side are left out of the norms, and a grid of at most four vertices in one direction always stops with NaN"
  },
  {
   "property": "C104",
   "status": "partial",
   "theorems": [
    "Verif.Resid.vertical_balance",
    "Verif.Resid.horizontal_balance",
    "Verif.Resid.horizontal_balance_periodic",
    "Verif.Resid.rest_continuity",
    "Verif.Resid.body_force_reaches_equation",
    "Verif.Resid.lith_layered",
    "Verif.Resid.surface_balance",
    "Verif.Resid.surface_balance_iff",
    "Verif.Resid.stress_base_unbalanced",
    "Verif.Resid.horizontal_force_exact",
    "Verif.Resid.incision_within_channel",
    "Verif.Resid.continuity_iff"
   ],
   "note": "interior equations are exact; at the free surface balance needs weightless air and no background pressure (proved equivalence), and a base with prescribed normal stress lacks half a cell of weight"
  },
  {
   "property": "C105",
   "status": "partial",
   "theorems": [
    "Verif.Resid.polar_upper_partial",
    "Verif.Resid.polar_lower_reversed",
    "Verif.Resid.polar_axis_unchanged"
   ],
   "note": "true above the horizontal axis; below it gravity points away from the centre, on it gravity stays vertical"
  },
  {
   "property": "C106",
   "status": "partial",
   "theorems": [
    "Verif.Sparse.scaled_diagonal_is_cubed",
    "Verif.Sparse.scaling_equalises_partial",
    "Verif.Sparse.diagonal_not_equalised"
   ],
   "note": "false for the code: the factors are the diagonal itself instead of one over its square root, so the diagonal is cubed and contrasts grow"
  },
  {
   "property": "C107",
   "status": "partial",
   "theorems": [
    "Verif.Output.phase_map_nearest",
    "Verif.Output.output_maps_partial",
    "Verif.Output.compo_is_not_phase"
   ],
   "note": "true for the two refined maps; the map of standard resolution called compo shows the dual phase instead of the phase"
  },
  {
   "property": "C108",
   "status": "proved",
   "theorems": [
    "Verif.Dataset.main_file",
    "Verif.Dataset.marker_file",
    "Verif.Dataset.chunk_valid"
   ],
   "note": "needs the surface chain to fit its allocation (50 markers per column) and the markers theirs; HDF5 calls are the list of datasets they are asked to write"
  },
  {
   "property": "C109",
   "status": "proved",
   "theorems": [
    "Verif.Dataset.main_file",
    "Verif.Dataset.marker_file",
    "Verif.Dataset.unit_val",
    "Verif.Dataset.params_si"
   ],
   "note": "rounding to float is not modelled"
  },
  {
   "property": "C11",
   "status": "proved",
   "theorems": [
    "Verif.Sparse.scaled_rhs_equivalent",
    "Verif.Sparse.scaled_system_equivalent",
    "Verif.Sparse.unscaled_solution_reached",
    "Verif.Sparse.scaling_preserves_symmetry",
    "Verif.Sparse.scaling_preserves_transpose",
    "Verif.Sparse.extracted_factors",
    "Verif.Sparse.picard_scaling_correct"
   ],
   "note": ""
  },
  {
   "property": "C110",
   "status": "partial",
   "theorems": [
    "Verif.Output.series_means",
    "Verif.Output.series_schedule_independent",
    "Verif.Output.mean_bounds",
    "Verif.Output.mean_invariant_bound",
    "Verif.Output.series_invariant_omits_yy",
    "Verif.Output.series_history"
   ],
   "note": "the invariant of the strain rate leaves out the out-of-plane component; corner values at the surface include air; with no rock cell the means are 0/0"
  },
  {
   "property": "C111",
   "status": "partial",
   "theorems": [
    "Verif.Output.map_axes",
    "Verif.Output.selectMech_spec",
    "Verif.Output.map_index_injective",
    "Verif.Output.deformation_map_partial",
    "Verif.Output.tie_keeps_last_mechanism",
    "Verif.Output.map_strain_rate_is_not_the_axis"
   ],
   "note": "the law is evaluated at root three times the strain rate of the axis; where mechanisms tie the map shows the previous point's mechanism (uninitialised at the first point); the law itself is a parameter"
  },
  {
   "property": "C112",
   "status": "partial",
   "theorems": [
    "Verif.Bp.continue_with_other_length",
    "Verif.Bp.longer_run_series",
    "Verif.Bp.same_length_series"
   ],
   "note": "true for everything but the time series, which are read with the new length and come out shifted into each other; the sum of the elastic energy is not stored at all"
  },
  {
   "property": "C113",
   "status": "partial",
   "theorems": [
    "Verif.Dataset.output_leaves_run_partial",
    "Verif.Dataset.residual_dump_restores",
    "Verif.Dataset.output_changes_run"
   ],
   "note": "false with composition diffusion switched on: the writer overwrites the composition used by the next density update; the fields compared are those the writers touch"
  },
  {
   "property": "C114",
   "status": "proved",
   "theorems": [
    "Verif.Units.model_parameters",
    "Verif.Units.material_parameters",
    "Verif.Units.nothing_else",
    "Verif.Units.scales_do_not_matter",
    "Verif.Units.etaVp_unit",
    "Verif.Units.end_values",
    "Verif.Units.constants_si",
    "Verif.Units.spacing_fills",
    "Verif.Units.tolerances_follow_scales",
    "Verif.Units.default_plastic_tolerance"
   ],
   "note": "tolerances are numbers of characteristic units, so the physical tolerance follows the scales; the default of eta_tol is 1e11"
  },
  {
   "property": "C115",
   "status": "partial",
   "theorems": [
    "Verif.Units.accepted_iff",
    "Verif.Units.too_many_phases"
   ],
   "note": "accepted exactly when sensible, for at most 20 phases; with more the arrays of mat_prop are overrun; negative product phases, diagram numbers of 10 and more and the order of the softening strains are not checked by the program and not part of the predicate"
  },
  {
   "property": "C116",
   "status": "partial",
   "theorems": [
    "Verif.Heap.memory_of_run_partial",
    "Verif.Heap.memory_between_steps",
    "Verif.Heap.mechanics_needed",
    "Verif.Heap.anisotropy_needed",
    "Verif.Heap.angle_needed",
    "Verif.Heap.kinetics_needed",
    "Verif.Heap.jacobian_needed",
    "Verif.Heap.switch_once_needed",
    "Verif.Heap.solver_needed",
    "Verif.Heap.factor_left"
   ],
   "note": "true for sound switches and orderly steps, except the block of the lateral stress; each condition is shown to be needed: without mechanics, with an unknown solver, with anisotropy other than 0 or 1, with initial directions but no anisotropy, with kinetics of a phase but not of the model, or when Newton steps are asked for without a Jacobian or after a step without them, the run uses or releases a pointer that was never set; a step that stagnates in its first pass leaves the Cholesky factor; blocks that live inside one routine and file handles are not modelled"
  },
  {
   "property": "C117",
   "status": "proved",
   "theorems": [
    "Verif.Tan.grid_stress_law",
    "Verif.Tan.cell_tangent",
    "Verif.Tan.vertex_tangent",
    "Verif.Tan.picard_frozen",
    "Verif.Tan.picard_exact",
    "Verif.Tan.slope_of_effective",
    "Verif.Tan.air_transmits_nothing"
   ],
   "note": "the angle of the foliation and the elastic part are held fixed, as they are during a step"
  },
  {
   "property": "C118",
   "status": "proved",
   "theorems": [
    "Verif.Tan.viscosity_differences_converge",
    "Verif.Tan.divergence_density_converge",
    "Verif.Tan.differences_left_out",
    "Verif.Tan.quadratic_exact",
    "Verif.Tan.newton_vertex_converges",
    "Verif.Tan.newton_cell_converges"
   ],
   "note": "a limit statement: with the finite step of the code the derivatives are exact only for quadratic laws with centred differences (quadratic_exact), and the anisotropy factor, the dilation at vertices and the dependence of the density on strain rates are not differentiated (differences_left_out)"
  },
  {
   "property": "C119",
   "status": "partial",
   "theorems": [
    "Verif.JacRow.x_row_is_derivative_partial",
    "Verif.JacRow.z_row_is_derivative_partial",
    "Verif.JacRow.x_derivative",
    "Verif.JacRow.z_derivative",
    "Verif.JacRow.stored_cell_operators",
    "Verif.JacRow.stored_vertex_operators",
    "Verif.JacRow.incompressible_row_not_derivative",
    "Verif.JacRow.stress_side_row_empty",
    "Verif.JacRow.stress_bottom_row_empty",
    "Verif.JacRow.stress_side_row_not_derivative",
    "Verif.JacRow.surface_row_not_derivative",
    "Verif.JacRow.x_weights",
    "Verif.JacRow.z_weights",
    "Verif.JacRow.x_corr",
    "Verif.JacRow.z_corr",
    "Verif.JacRow.x_periodic",
    "Verif.JacRow.z_periodic"
   ],
   "note": "true for nodes surrounded by rock, in compressible models or for changes that keep the volume, with equal stabilisation terms; false for incompressible models (the matrix always subtracts the volume change), on stress sides (rows are empty) and next to air cells (averaging weights differ); rows next to no-slip and free-slip walls are modelled but not covered by the theorem"
  },
  {
   "property": "C12",
   "status": "proved",
   "theorems": [
    "Verif.Sparse.triplets_label_rows",
    "Verif.Sparse.permutation_round_trip"
   ],
   "note": ""
  },
  {
   "property": "C120",
   "status": "proved",
   "theorems": [
    "Verif.Point.invariant_turn",
    "Verif.Point.update_turned"
   ],
   "note": "phases of constant grain size, isotropic"
  },
  {
   "property": "C121",
   "status": "partial",
   "theorems": [
    "Verif.Point.heat_partial",
    "Verif.Point.update_total_partial",
    "Verif.Point.update_goes_on",
    "Verif.Point.stress_below_strength",
    "Verif.Point.creep_physical",
    "Verif.Point.rock_yields",
    "Verif.Point.rock_creeps",
    "Verif.Point.tension_stops",
    "Verif.Point.heat_wrong_grain",
    "Verif.Point.sliding_gives_no_heat"
   ],
   "note": "true without grain boundary sliding, with diffusion creep at the reference grain size, with plasticity linear in the rate, without dilation and with a strength that is not negative; otherwise false: diffusion creep heats at the wrong grain size, sliding gives no heat at all, and in tension the program stops with a negative heat source; the local iterations converge within their number of passes for exponents up to 1000"
  },
  {
   "property": "C122",
   "status": "proved",
   "theorems": [
    "Verif.Point.mean_between",
    "Verif.Point.cell_update",
    "Verif.Point.vertex_update",
    "Verif.Point.node_stress_below_strength",
    "Verif.Point.air_zero",
    "Verif.Point.stops_iff_empty",
    "Verif.Point.grid_spec",
    "Verif.Point.update_limits"
   ],
   "note": "fractions below 1e-13 are skipped by the program, so compositions are taken to have none; the strength holds where plasticity is linear in the rate and does not dilate"
  },
  {
   "property": "C123",
   "status": "partial",
   "theorems": [
    "Verif.Point.cell_heat_single_partial",
    "Verif.Point.cell_heat_mixed",
    "Verif.Point.harmonic_mixture_overheats"
   ],
   "note": "true for one phase and for the arithmetic mean; with the harmonic mean the heat is more than the work (8 instead of 6 in the example), because heat is always averaged arithmetically; mixed cells with elasticity are not covered"
  },
  {
   "property": "C124",
   "status": "proved",
   "theorems": [
    "Verif.Point.kinetic_between",
    "Verif.Point.kinetic_time"
   ],
   "note": "the equilibrium densities and the affinity are parameters"
  },
  {
   "property": "C125",
   "status": "partial",
   "theorems": [
    "Verif.SFlow.column_weights",
    "Verif.SFlow.column_mass",
    "Verif.SFlow.weight_range",
    "Verif.SFlow.static_pressure_partial",
    "Verif.SFlow.cut_off_hilltop_overweight",
    "Verif.SFlow.vertex_overweight",
    "Verif.SFlow.top_row_reads_behind"
   ],
   "note": "continuous in the surface height, but half a row of rock is missing from every column and from the pressure at depth; the top cell has half its pressure; cells below a cut-off hill top and vertices get more than their full density; with rock in the top row tags behind the array are read"
  },
  {
   "property": "C126",
   "status": "partial",
   "theorems": [
    "Verif.SFlow.surfaceNodes_spec",
    "Verif.SFlow.chainVel_between",
    "Verif.SFlow.chainVel_affine",
    "Verif.SFlow.surface_velocity_partial",
    "Verif.SFlow.uplift_lags",
    "Verif.SFlow.flat_uplift_misjudged",
    "Verif.SFlow.stale_velocity"
   ],
   "note": "exact when the velocity does not change with depth; otherwise the vertical velocity is that of half to one and a half rows below the surface; a column without air keeps its old value"
  },
  {
   "property": "C127",
   "status": "partial",
   "theorems": [
    "Verif.SFlow.start_velocity",
    "Verif.SFlow.start_divergence",
    "Verif.SFlow.start_pressure",
    "Verif.SFlow.start_air_pressure",
    "Verif.SFlow.expansion_needs_strain"
   ],
   "note": "velocities hold; air starts at the background pressure because the test for air is always true; without background strain rate the expansion is left out"
  },
  {
   "property": "C128",
   "status": "proved",
   "theorems": [
    "Verif.SFlow.chain_placed"
   ],
   "note": ""
  },
  {
   "property": "C129",
   "status": "partial",
   "theorems": [
    "Verif.CStep.marker_density_partial",
    "Verif.CStep.resting_interior_balanced",
    "Verif.CStep.marker_density_cut",
    "Verif.CStep.resting_surface_never_balanced",
    "Verif.CStep.carried_bounded"
   ],
   "note": "true away from the surface; in a cell cut by the surface a rock at rest reports an increase in the first step and a decrease in all later ones, because the density at the end of the step is evaluated without the surface correction that the old one had; the closed form is for markers at cell centres"
  },
  {
   "property": "C13",
   "status": "proved",
   "theorems": [
    "Verif.Time.dt_within_bounds",
    "Verif.Time.dt_growth_limited",
    "Verif.Time.dt_courant",
    "Verif.Time.dt_limit_attained",
    "Verif.Time.vmax_spec",
    "Verif.Time.dt_growth_not_limited_at_rest"
   ],
   "note": "with negligible motion the code falls back to the start value, so growth is unlimited there (dt_growth_not_limited_at_rest)"
  },
  {
   "property": "C130",
   "status": "partial",
   "theorems": [
    "Verif.CStep.expansion_is_density_drop_partial",
    "Verif.CStep.warming_expands",
    "Verif.CStep.expansion_where",
    "Verif.CStep.expansion_decided_elsewhere",
    "Verif.CStep.constant_density_expands"
   ],
   "note": "true for mixtures of materials with the linear law at reference pressure when the first cell is rock; whether any cell expands is decided by the flag of the first cell, and materials of constant density expand as well"
  },
  {
   "property": "C131",
   "status": "partial",
   "theorems": [
    "Verif.CStep.compressible_history",
    "Verif.CStep.compressible_now_partial",
    "Verif.CStep.stale_compressible_flag"
   ],
   "note": "flags are never cleared: a cell counts as compressible once it has been; with incompressible material in it the solver divides by zero"
  },
  {
   "property": "C132",
   "status": "proved",
   "theorems": [
    "Verif.CStep.cooling_covers",
    "Verif.CStep.cooling_steps_rounded",
    "Verif.CStep.perturbation_in_ellipse"
   ],
   "note": "rounding to nearest with any tie rule, without overflow and underflow; a duration of zero gives an undefined number of steps"
  },
  {
   "property": "C133",
   "status": "proved",
   "theorems": [
    "Verif.CStep.heat_solver_solves",
    "Verif.CStep.polar_factor_posdef",
    "Verif.CStep.cartesian_ignores_upper"
   ],
   "note": "Cartesian matrices are symmetric under the conditions of heat_matrix_symmetric_partial (C35); the assembly of the polar rows is not modelled"
  },
  {
   "property": "C134",
   "status": "partial",
   "theorems": [
    "Verif.CStep.grain_start",
    "Verif.CStep.grain_between_partial",
    "Verif.CStep.grain_forgotten"
   ],
   "note": "the marker value is overwritten by the interpolated grid value in every step, so markers of different materials at one place get the same grain size even if nothing changes it"
  },
  {
   "property": "C135",
   "status": "partial",
   "theorems": [
    "Verif.Point.aniso_turned",
    "Verif.Point.aniso_law_partial",
    "Verif.Point.aniso_goes_on",
    "Verif.Point.aniso_heat",
    "Verif.Point.aniso_rock_yields",
    "Verif.Point.aniso_constant",
    "Verif.Point.aniso_rest_stops",
    "Verif.Point.aniso_elastic_rate_squared",
    "Verif.Point.aniso_heat_excess",
    "Verif.Point.aniso_heat_overstated",
    "Verif.Point.aniso_limits_ignored",
    "Verif.Point.aniso_zero_beta"
   ],
   "note": "turning and the law hold, the latter when the local iteration met its tolerance and for materials with positive compressibility; false: the heat source is too large by up to the anisotropy factor for shear along the layers, the reported elastic rate is squared, the limits on viscosity are not applied, rock at rest without stress ends the program, and yielding with zero compressibility gives NaN"
  },
  {
   "property": "C136",
   "status": "partial",
   "theorems": [
    "Verif.Point.aniso_cell",
    "Verif.Point.aniso_vertex",
    "Verif.Point.aniso_cell_rest_stops",
    "Verif.Point.aniso_density_zero"
   ],
   "note": "viscosity, rates and heat are means; with density_variations = 1 the density of every cell of an anisotropic model is zero, and its logarithm enters the residual"
  },
  {
   "property": "C137",
   "status": "partial",
   "theorems": [
    "Verif.Point.factor_mean",
    "Verif.Point.factor_goes_on",
    "Verif.Point.factor_periodic",
    "Verif.Point.factor_isotropic_stops"
   ],
   "note": "true except that with the geometric mean the program ends if all factors are one (its check of a positive value tests the logarithm)"
  },
  {
   "property": "C138",
   "status": "partial",
   "theorems": [
    "Verif.Point.field_follows",
    "Verif.Point.cellBeta_mean",
    "Verif.Point.cellAlpha_between",
    "Verif.Point.field_frozen",
    "Verif.Point.restart_changes_field"
   ],
   "note": "true with elasticity on; without it the fields keep their initial values for ever, and are zero after a restart"
  },
  {
   "property": "C139",
   "status": "partial",
   "theorems": [
    "Verif.Point.grain_update_partial",
    "Verif.Point.grain_run",
    "Verif.Point.grain_iterations",
    "Verif.Point.grainAt_wattmeter",
    "Verif.Point.grain_decreases",
    "Verif.Point.grain_slope_is_derivative",
    "Verif.Point.grain_unique"
   ],
   "note": "any result has strain rates and grain size in balance and the solution is unique; that 20 passes suffice is not proved (the first two passes leave out the change of grain size), and where the rock yields the balance holds at the trial stress, not at the stress returned"
  },
  {
   "property": "C14",
   "status": "proved",
   "theorems": [
    "Verif.Time.substeps_cover_step"
   ],
   "note": ""
  },
  {
   "property": "C140",
   "status": "partial",
   "theorems": [
    "Verif.Flow.power_usable",
    "Verif.Flow.linear_usable_partial",
    "Verif.Flow.linear_one_unusable",
    "Verif.Flow.sliding_usable",
    "Verif.Flow.peierls_usable",
    "Verif.Flow.grain_usable_partial",
    "Verif.Flow.piezometer_nan",
    "Verif.Flow.viscosity_pos",
    "Verif.Flow.viscosity_trends",
    "Verif.Flow.tables_sound",
    "Verif.Flow.tables_go_on"
   ],
   "note": "true for all built-in creep laws except diffusion law 1, which fills in the dislocation creep instead, and for the grain size laws except the two piezometers (11 and 12), which give no number"
  },
  {
   "property": "C141",
   "status": "partial",
   "theorems": [
    "Verif.Tab.diagrams_good",
    "Verif.Tab.diagram_node",
    "Verif.Tab.diagram_between",
    "Verif.Tab.diagram_units",
    "Verif.Tab.model2_density",
    "Verif.Tab.smooth_ends",
    "Verif.Tab.smooth_between",
    "Verif.Tab.smooth_monotone",
    "Verif.Tab.smooth_linear",
    "Verif.Tab.smooth_jump",
    "Verif.Tab.coesite_between",
    "Verif.Tab.coesite_monotone_partial",
    "Verif.Tab.model4_density",
    "Verif.Tab.coesite_outside",
    "Verif.Tab.coesite_falls",
    "Verif.Tab.checkModels_spec",
    "Verif.Tab.short_file_undetermined",
    "Verif.Tab.coesite_short",
    "Verif.Tab.index_unchecked"
   ],
   "note": "entries, range, units and smoothing proved off the exact lower limits (C57); false outside the limits, where the look-up jumps a hundredth of a step inwards so that density can fall with pressure (shown); a short file is not noticed and leaves what was in memory, or density zero in the quartz-coesite table (shown); an index beyond the ten diagrams passes the check (shown)"
  },
  {
   "property": "C142",
   "status": "partial",
   "theorems": [
    "Verif.Coupled.returned_no_worse_partial",
    "Verif.Coupled.iterate_spec",
    "Verif.Coupled.preconditioner_solves",
    "Verif.Coupled.compressible_one_iteration",
    "Verif.Coupled.balanced_state_changed",
    "Verif.Coupled.first_step_breakdown",
    "Verif.Coupled.solvable_breakdown"
   ],
   "note": "relative to the start vector the reduction is proved, and the single iteration of compressible systems; false relative to the zero correction, because the start vector is the present flow: for every tolerance a balanced state is changed (shown); false for solvable systems whose first direction brings no progress: the next one is divided by zero (shown); running out of the thousand iterations is not reported. Exact arithmetic and factorisation; the pressure blocks are those meant, see C91"
  },
  {
   "property": "C143",
   "status": "partial",
   "theorems": [
    "Verif.Coupled.comp_momentum_exact",
    "Verif.Coupled.comp_continuity",
    "Verif.Coupled.comp_divergence_decreases",
    "Verif.Coupled.comp_converges",
    "Verif.Coupled.comp_accepts",
    "Verif.Coupled.comp_result",
    "Verif.Coupled.comp_returned"
   ],
   "note": "all proved for exact arithmetic, factorisation and the pressure blocks meant (C91); the last sentence is false after twenty iterations: the decision is then taken on the flow one iteration earlier, and it looks at the signed maximum only (as in C93)"
  },
  {
   "property": "C144",
   "status": "partial",
   "theorems": [
    "Verif.Coupled.start_vx_partial",
    "Verif.Coupled.start_vz",
    "Verif.Coupled.start_vz_not_present",
    "Verif.Coupled.start_vz_outside",
    "Verif.Coupled.chosen_after_reading",
    "Verif.Coupled.unknown_number_no_change"
   ],
   "note": "proved for horizontal velocities and for the replacement of unsuited solvers; false for vertical velocities: they are read from the array of horizontal velocities, beyond its end in grids with at least 2 Nx + 3 rows (shown); false for unknown numbers: no solver is called and the flow never changes (shown)"
  },
  {
   "property": "C145",
   "status": "partial",
   "theorems": [
    "Verif.viscous_work_nonneg_partial",
    "Verif.viscous_work_pos",
    "Verif.velocity_determined",
    "Verif.assembled_block",
    "Verif.assembled_definite",
    "Verif.assembled_direct_converges",
    "Verif.stabilisation_negative_work",
    "Verif.viscous_work_pos_compressible"
   ],
   "note": "isotropic Picard rows, no periodic sides and no stress boundaries; work never negative without stabilisation, or when density nowhere increases against gravity; false with stabilisation under an unstable layering (shown: the stabilised block does negative work). Zero only at rest: without air (for compressible flow with out-of-plane strain this needs viscous vertices, viscous_work_pos_compressible)"
  },
  {
   "property": "C146",
   "status": "partial",
   "theorems": [
    "Verif.gentle_flow_unique_partial",
    "Verif.gentle_definite",
    "Verif.gentle_terrain",
    "Verif.terrain_work_pos",
    "Verif.loose_cell_slides",
    "Verif.spike_flow_not_unique",
    "Verif.rest_same_volume",
    "Verif.conformal_flow_meets_no_force"
   ],
   "note": "proved for topography that steps by at most one cell between neighbouring columns, with the rows of C145 (isotropic Picard, no periodic sides); for compressible flow with out-of-plane strain the velocity equations alone leave a flow free that stretches every cell equally (conformal_flow_meets_no_force), the volume equations then exclude it (rest_same_volume, C152); false for steep topography: the lateral correction can cut the top cell off a peak, and this loose cell slides without force (shown)"
  },
  {
   "property": "C147",
   "status": "partial",
   "theorems": [
    "Verif.StepFlow.predicted_is_found_partial",
    "Verif.StepFlow.update_history_free",
    "Verif.StepFlow.search_measures_next_pass_partial",
    "Verif.StepFlow.accepted_step_improves_next_pass_partial",
    "Verif.StepFlow.stabilised_row_gap",
    "Verif.StepFlow.scaled_row_gap",
    "Verif.StepFlow.volume_row_gap"
   ],
   "note": "isotropic, Picard rows; proved without free-surface stabilisation, diagonal scaling and density_variations; with one of these the prediction uses the viscosities of the iteration before, or another pressure for the density, and differs (exact conditions for agreement given for each)"
  },
  {
   "property": "C148",
   "status": "partial",
   "theorems": [
    "Verif.StepFlow.recorded_stress_of_recorded_flow",
    "Verif.StepFlow.recorded_residual_is_accepted_partial",
    "Verif.StepFlow.recorded_force_balance",
    "Verif.StepFlow.recorded_force_balance_z",
    "Verif.StepFlow.recorded_volume_balance_partial",
    "Verif.StepFlow.reset_volume_gap",
    "Verif.StepFlow.reset_keeps_divergence",
    "Verif.StepFlow.viscoelastic_goes_on",
    "Verif.StepFlow.vertex_viscosity_of_flow",
    "Verif.StepFlow.density_of_pressure",
    "Verif.StepFlow.recorded_density_of_recorded_pressure"
   ],
   "note": "isotropic; accepted residual: without density_variations, where the final update takes the density at another pressure; momentum balances written out at inner nodes; volume parts add up except in cells whose stress was reset in tension: these record a plastic divergence the balance does not contain (shown)"
  },
  {
   "property": "C149",
   "status": "proved",
   "theorems": [
    "Verif.Point.mixture_is_mean"
   ],
   "note": "material that only creeps at constant viscosity; without elasticity, both viscosities within the limits of the user"
  },
  {
   "property": "C15",
   "status": "partial",
   "theorems": [
    "Verif.Time.model_time_equals_advected_partial",
    "Verif.Time.clock_bookkeeping",
    "Verif.Time.model_time_differs_after_restart",
    "Verif.Time.loop_dt"
   ],
   "note": "false for the code after a safe-mode restart: the clock keeps the unreduced step (model_time_differs_after_restart)"
  },
  {
   "property": "C150",
   "status": "partial",
   "theorems": [
    "Verif.StepFlow.power_balance",
    "Verif.StepFlow.cell_budget",
    "Verif.StepFlow.heat_near_work",
    "Verif.StepFlow.heat_at_most_work",
    "Verif.StepFlow.heat_falls_short"
   ],
   "note": "closed box with sticking or shear-free walls, without free-surface stabilisation, incompressible; the power balance of the recorded stresses holds for every material; the heating takes the shear work from rates averaged to cells, so it differs from the power by exactly the difference of the shear work at vertices and in cells (cell_budget); with one viscosity it never exceeds the power (heat_at_most_work), and a third of it can be missing (heat_falls_short); for varying viscosity only the exact difference is given"
  },
  {
   "property": "C151",
   "status": "partial",
   "theorems": [
    "Verif.StepFlow.matrix_is_derivative_partial",
    "Verif.StepFlow.residual_linear_in_step_partial",
    "Verif.StepFlow.one_solve_is_enough_partial",
    "Verif.StepFlow.line_search_takes_full_step_partial",
    "Verif.StepFlow.extracted_is_shift",
    "Verif.StepFlow.change_homogeneous",
    "Verif.StepFlow.scaled_by_diagonal",
    "Verif.StepFlow.box_linear",
    "Verif.StepFlow.plate_linear"
   ],
   "note": "Proved for viscous, viscoelastic, compressible and incompressible materials, with free surface, free surface stabilisation and diagonal scaling, for Picard and Newton settings of the line search (the matrix is the Picard one). Missing: periodic sides, prescribed stresses at sides, density_variations (not linear), mixed phases (mixing of reactions). On grids with less than five vertices in a direction the norms do not exist and the run stops (C103), so the statement on the line search has a hypothesis that excludes them."
  },
  {
   "property": "C152",
   "status": "partial",
   "theorems": [
    "Verif.StepFlow.step_has_one_flow_partial",
    "Verif.StepFlow.one_flow_partial",
    "Verif.StepFlow.one_pressure_partial",
    "Verif.StepFlow.solution_exists_partial",
    "Verif.StepFlow.start_does_not_matter_partial",
    "Verif.stokes_no_source",
    "Verif.pressure_no_source",
    "Verif.stokes_solvable",
    "Verif.open_top_grounded",
    "Verif.gentle_solvable",
    "Verif.work_in"
   ],
   "note": "The energy argument of C145/C146 is carried to the assembled system with pressures: a field without sources does no viscous work, so it has no velocity, no pressure in compressible cells and equal pressures across solved faces; hence pressures vanish in every cell tied to a compressible cell or to air (open_top_grounded: every cell, below a free surface). stokes_solvable turns this into exactly one solution for every right-hand side. step_has_one_flow_partial lifts it to a whole pass of the nonlinear loop through the numbering, the solution vector and ExtractSolutions. Missing: materials whose viscosity depends on the flow (the balance is then not linear), periodic sides, steep peaks (C146 shows a singular system) and closed incompressible boxes, where pressure is fixed up to a constant only (C153)."
  },
  {
   "property": "C153",
   "status": "partial",
   "theorems": [
    "Verif.StepFlow.closed_step_iff_partial",
    "Verif.StepFlow.closed_pressure_partial",
    "Verif.StepFlow.volume_residuals",
    "Verif.StepFlow.outflow_prescribed",
    "Verif.closed_solvable_iff",
    "Verif.volume_stays",
    "Verif.sealed_grounded",
    "Verif.StepFlow.warming_flow"
   ],
   "note": "closed_solvable_iff states it for the assembled system and any right-hand side: solvable exactly if the volume rows add up to zero (with one cell made compressible the system is solvable by C152, and its pressure then comes out zero). closed_step_iff_partial carries it to a pass of the nonlinear loop; warming_flow shows both answers on one model: a closed plate that expands thermally has no flow, whatever the solver does. Missing: materials whose viscosity depends on the flow, periodic sides."
  },
  {
   "property": "C154",
   "status": "partial",
   "theorems": [
    "Verif.StepFlow.pure_shear_exact_partial",
    "Verif.StepFlow.pure_shear_stress_partial",
    "Verif.StepFlow.pure_shear_has_flow_partial",
    "Verif.StepFlow.slab_meets"
   ],
   "note": "pure_shear_exact_partial is an equivalence: the flows that balance all equations are u = -eps x, v = eps z with the pressure of the weight plus a constant, and no others; the wall tags and values are those the model of SetBCs leaves with the pure shear functions. slab_meets shows the hypotheses to hold on every grid. pure_shear_has_flow_partial: with several viscosities and elasticity there is a flow, too. Missing from the exact flow: elasticity, free-surface stabilisation, compressible materials. The simple shear functions (periodic sides) are in C161."
  },
  {
   "property": "C155",
   "status": "proved",
   "theorems": [
    "Verif.StepFlow.patch_test",
    "Verif.StepFlow.pure_shear_any_rheology",
    "Verif.StepFlow.stressed_slab_meets",
    "Verif.StepFlow.row_x_forces",
    "Verif.StepFlow.row_z_forces",
    "Verif.StepFlow.even_stress_balanced"
   ],
   "note": "patch_test needs no hypothesis on the flow laws, only that the update goes through (no local iteration ends the program). row_x_forces and row_z_forces write the residual rows as force balances of the stresses the update left, at any state. stressed_slab_meets shows the hypotheses to hold on every grid for an elastic slab with shear and normal stress left from before. even_stress_balanced is the version with gravity, for laws whose stress does not depend on the pressure. Outside: air, the free surface stabilisation, anisotropy."
  },
  {
   "property": "C156",
   "status": "proved",
   "theorems": [
    "Verif.StepFlow.maxwell_step",
    "Verif.StepFlow.maxwell_step_exists",
    "Verif.StepFlow.maxwell_history",
    "Verif.StepFlow.maxwell_loading",
    "Verif.StepFlow.maxwell_converges",
    "Verif.StepFlow.maxwell_exact",
    "Verif.StepFlow.slab_maxwell",
    "Verif.StepFlow.slab_history",
    "Verif.StepFlow.pure_shear_only"
   ],
   "note": "MaxwellStep is the path of the stress through one step: P2Mastah to cells and vertices, copies between them, the update of C148, a balanced flow (the only one, by pure_shear_only), the recorded stresses, the change back to the markers. maxwell_step is one step, maxwell_history the induction, maxwell_loading the closed form, maxwell_converges and maxwell_exact its limit. maxwell_step_exists shows that such a step can always be made, slab_history that the whole history exists on every grid. With gravity in any direction. Assumed: one density, no air, incompressible, every node fed by a marker, viscosity and G dt within a factor 1e13 of each other (tolerance of the local iteration), effective viscosity within the limits. The stress rotation does nothing (C82); in pure shear there is nothing to rotate."
  },
  {
   "property": "C157",
   "status": "proved",
   "theorems": [
    "Verif.StepFlow.heat_step",
    "Verif.StepFlow.heat_history",
    "Verif.StepFlow.pure_shear_heating",
    "Verif.StepFlow.shear_heating_step",
    "Verif.StepFlow.shear_heating_history",
    "Verif.StepFlow.slab_shear_heating",
    "Verif.StepFlow.slab_heating_history",
    "Verif.StepFlow.no_shear_heating"
   ],
   "note": "heat_history is the induction for any even heating, shear_heating_history the benchmark: momentum solved and recorded (the only flow, C154), its dissipation handed to the thermal system, one solve, temperatures back to the markers. slab_shear_heating shows that such a step can be made on every grid, slab_heating_history that the whole history exists. Assumed: all rock, one heat capacity, every cell fed by a marker, no adiabatic heating, strain rate not below the floor of the code (1e-30 per second)."
  },
  {
   "property": "C158",
   "status": "proved",
   "theorems": [
    "Verif.StepFlow.hot_maxwell_step",
    "Verif.StepFlow.hot_maxwell_history",
    "Verif.StepFlow.hot_maxwell_energy",
    "Verif.StepFlow.maxwell_energy_step",
    "Verif.StepFlow.maxwell_heat_of_stress",
    "Verif.StepFlow.hot_maxwell_step_exists",
    "Verif.StepFlow.slab_hot_history"
   ],
   "note": "HotMaxwellStep joins the steps of C156 and C157: the stress the update records is the one that heats. hot_maxwell_energy is the budget, maxwell_energy_step its algebra for one implicit Euler step. hot_maxwell_step_exists and slab_hot_history show that such steps exist on every grid, for ever. Assumed beyond C156 and C157: the stress is not so small that its strain rate is below the floor of the code (1e-30 per second), where the code would heat by the floor instead."
  },
  {
   "property": "C159",
   "status": "partial",
   "theorems": [
    "Verif.StepFlow.plastic_loading_partial",
    "Verif.StepFlow.plastic_step_partial",
    "Verif.StepFlow.plastic_step_exists",
    "Verif.StepFlow.plastic_flow_balanced",
    "Verif.Point.vonMises_out",
    "Verif.StepFlow.slab_plastic",
    "Verif.StepFlow.slab_plastic_history",
    "Verif.StepFlow.yielding_run"
   ],
   "note": "Spec/VonMises states the yield rule without the code. The step records the stresses of the uniform flow; plastic_flow_balanced proves that this flow meets the walls and is balanced while the body yields. In a box that keeps its size, yielding_run (C160) proves the curve for the program's own start fields and loop, with any solver. Missing: a box that moves with the flow (pure_shear_ALE), where a solve is needed and it is not proved that it returns this flow and not another balanced one (plastic flow can localise, so no uniqueness is proved, unlike C156). Assumed: no friction and no dilation, linear overstress viscosity, rate not below the floor of the code, strength not below what the lower viscosity limit carries."
  },
  {
   "property": "C16",
   "status": "proved",
   "theorems": [
    "Verif.Time.loop_terminates",
    "Verif.Time.converged_means_converged",
    "Verif.Time.safe_mode_never_continues_unconverged",
    "Verif.Time.loop_dt"
   ],
   "note": ""
  },
  {
   "property": "C160",
   "status": "proved",
   "theorems": [
    "Verif.StepFlow.balanced_accepted",
    "Verif.StepFlow.settled_step",
    "Verif.StepFlow.pure_shear_start",
    "Verif.StepFlow.pure_shear_run_start",
    "Verif.StepFlow.pure_shear_kept",
    "Verif.StepFlow.pure_shear_step",
    "Verif.StepFlow.pure_shear_run",
    "Verif.StepFlow.yielding_step",
    "Verif.StepFlow.yielding_run",
    "Verif.StepFlow.passes_loop",
    "Verif.StepFlow.slab_own_run",
    "Verif.StepFlow.stressed_own_run"
   ],
   "note": "mechStep (Model/StepLoop) joins InitialiseSolutionFields, the nonlinear loop with its fields, and the final update; the solver is a parameter. passes_loop: its decisions are those of the loop of C17. pure_shear_run is the induction for every flow law without weight, yielding_run the one with weight through the markers. slab_own_run and stressed_own_run show that such runs exist on every grid of at least five by five vertices (smaller grids count no rows and stop, C103). Isotropic, without Jacobian; zero background divergence; the periodic sides are in C161."
  },
  {
   "property": "C161",
   "status": "proved",
   "theorems": [
    "Verif.StepFlow.simple_shear_start",
    "Verif.StepFlow.simple_shear_run_start",
    "Verif.StepFlow.simple_shear_kept",
    "Verif.StepFlow.row_seam_forces",
    "Verif.StepFlow.simple_shear_settled",
    "Verif.StepFlow.simple_shear_step",
    "Verif.StepFlow.simple_shear_run",
    "Verif.StepFlow.seam_own_run"
   ],
   "note": "The walls are those the model of SetBCs leaves with the simple shear functions; the box must be centred at z = 0, because the start flow is 2 eps z while the wall values are plus and minus eps times the height. seam_own_run shows such runs to exist on every grid of at least five by five vertices. Isotropic, without Jacobian, no weight. That the flow is the only balanced one is not claimed here (with periodic sides the solution set was not characterised)."
  },
  {
   "property": "C162",
   "status": "proved",
   "theorems": [
    "Verif.StepFlow.safe_step_accurate",
    "Verif.StepFlow.recorded_step",
    "Verif.StepFlow.loop_record",
    "Verif.StepFlow.cycle_kept",
    "Verif.StepFlow.step_ends",
    "Verif.StepFlow.unsafe_step_untested",
    "Verif.StepFlow.slab_records_anything"
   ],
   "note": "The solver is an arbitrary function of the number of evaluations, the fields and the mesh. safe_step_accurate is the guarantee; Accurate says with which setting the residuals are measured (the reduced time step). unsafe_step_untested and slab_records_anything (on every grid of at least five by five vertices, with relative tolerances alone and one iteration) are the counterpart without safe mode. Isotropic, without Jacobian; the residuals are real numbers, so the exit on NaN is the missing norm of C103."
  },
  {
   "property": "C163",
   "status": "proved",
   "theorems": [
    "Verif.StepFlow.creep_pure_shear_run",
    "Verif.StepFlow.creep_simple_shear_run",
    "Verif.StepFlow.creep_pure_shear_step",
    "Verif.StepFlow.creep_simple_shear_step",
    "Verif.StepFlow.creep_updates",
    "Verif.StepFlow.experiment_viscosity",
    "Verif.Point.power_update",
    "Verif.StepFlow.creepSlab_steps"
   ],
   "note": "Experiment states the published law (Spec.labRate) in terms of what is measured in the two kinds of experiment; AsMeasured is what is recorded. The steps exist (creep_pure_shear_step, creep_simple_shear_step give the result of the step), so the run theorems are not about runs that cannot happen; creepSlab_steps is a rock with a temperature, grain size and fugacity dependent law on every grid of at least five by five vertices. Exact arithmetic; temperature not below zero Celsius (the code cuts it off), constant grain size, no reaction. The body may consist of several phases of the same law."
  },
  {
   "property": "C164",
   "status": "proved",
   "theorems": [
    "Verif.StepFlow.hot_creep_history",
    "Verif.StepFlow.hot_creep_step",
    "Verif.StepFlow.hot_creep_weakens",
    "Verif.StepFlow.experiment_softens",
    "Verif.StepFlow.creep_starts",
    "Verif.StepFlow.mildSlab_step",
    "Verif.StepFlow.mildSlab_history"
   ],
   "note": "CreepStep is the recorded mechanical step (pure or simple shear), Warmed the thermal half of the same time step; the flow laws see the temperatures the markers give to the cells. mildSlab_history is a history without end on every grid of at least five by five vertices, with a law that depends on temperature. hot_creep_history speaks of N steps because a law may leave the limits of viscosity later. Exact arithmetic; one heat capacity, insulated sides, no adiabatic heating, the temperature within a time step does not change after the mechanical part (as in the code)."
  },
  {
   "property": "C165",
   "status": "partial",
   "theorems": [
    "Verif.StepFlow.sheared_loading_partial",
    "Verif.StepFlow.sheared_not_corotational",
    "Verif.StepFlow.sheared_markers",
    "Verif.StepFlow.sheared_step",
    "Verif.StepFlow.seam_body",
    "Verif.StepFlow.seam_loading"
   ],
   "note": "sheared_loading_partial is the first half: the closed form after any number of steps, with the program's own start fields, loop and final update and any solver, and the stress carried by markers that move and are copied. sheared_not_corotational disproves the second half: in no such run does any step after the first follow the co-rotational law, whatever the rotation switch (the vorticity the routine rotates by is never filled, C82). seam_loading shows that such runs exist on every grid of at least five by five vertices with the switch on. Assumed: one material, no weight, no air, incompressible, every node fed by a marker."
  },
  {
   "property": "C166",
   "status": "partial",
   "theorems": [
    "Verif.Point.stress_of_markers",
    "Verif.Point.stress_of_layers",
    "Verif.Point.grid_angle_unused",
    "Verif.Point.turned_cell_recorded",
    "Verif.Aniso.start_director",
    "Verif.Aniso.entering_copies_partial",
    "Verif.Aniso.entering_layers_iff",
    "Verif.Aniso.entering_mirrored",
    "Verif.Aniso.shear_turns_downwards",
    "Verif.Aniso.entering_on_planet"
   ],
   "note": "grid_angle_unused shows that the angle on the grid, which is mirrored for directors that point downwards (C54), changes nothing that is recorded: the invariant does not depend on it and the stress made with it is not used. stress_of_markers is the law of the layers (Spec.Layered) through the interpolation, without the alignment assumed in C136. Entering markers: entering_copies_partial is the case that holds; entering_layers_iff, entering_mirrored and entering_on_planet are the faults, and shear_turns_downwards shows that one step of simple shear leads there. Left out: z = 0 on a planet, where the code takes the arc tangent of infinity."
  },
  {
   "property": "C167",
   "status": "partial",
   "theorems": [
    "Verif.Moving.sides_move",
    "Verif.Moving.strip_lost",
    "Verif.Moving.strip_lost_vertical",
    "Verif.Moving.rock_on_wall_lost",
    "Verif.Moving.rock_on_floor_lost",
    "Verif.Moving.between_walls_kept_partial",
    "Verif.Moving.rock_falls_behind",
    "Verif.Moving.solved_flow",
    "Verif.Moving.between_floors_kept_partial",
    "Verif.Moving.rock_sinks",
    "Verif.Moving.linear_step"
   ],
   "note": "Composition of PureShearALE, SetGridCoordinates, V2P and RogerGuntherII in the order of the main loop. rock_on_wall_lost disproves the property for every grid, box and time step: every marker on a shortened wall is switched off (rock_on_floor_lost: top and bottom in extension). strip_lost gives strips on both sides in which markers are lost at the first stage; between_walls_kept_partial is what holds (markers already between the moved walls are kept, with their exact displacement) and rock_falls_behind their drift; between_floors_kept_partial and rock_sinks are the same for horizontal extension. solved_flow: the flow assumed is the one the solver finds (C154, C160). Left out: which markers between the strip and the moved wall survive the later stages, free surface, pure_shear_ALE = 2 and the conservative interpolation."
  },
  {
   "property": "C168",
   "status": "partial",
   "theorems": [
    "Verif.Strain.strain_of_simple_shear_partial",
    "Verif.Strain.shear_step",
    "Verif.Strain.shear_run",
    "Verif.Strain.shear_run_exists",
    "Verif.Strain.solved_shear",
    "Verif.Strain.strain_of_pure_shear_differs",
    "Verif.Moving.kept_inside",
    "Verif.Strain.strain_of_substeps",
    "Verif.Strain.strain_error_of_substeps",
    "Verif.Strain.area_of_substeps",
    "Verif.Strain.record_exists",
    "Verif.Strain.affine_of_flow"
   ],
   "note": "strain_of_simple_shear_partial: the part that holds, over any history, with the interpolation and the wrapping of the program (with and without the conservative interpolation). shear_run_exists: such runs exist from every start; solved_shear: the flow of C161 is such a flow at every step. strain_of_pure_shear_differs disproves the property for pure shear with moving sides, for every pair of markers not above one another, and shows the loss of area. strain_of_substeps, strain_error_of_substeps: the recorded tensor after any number of advection substeps in closed form, and by how much its two stretches fall short of those of the box; area_of_substeps: the tensor loses more area than the box; record_exists: such records exist. Assumed: no air, a marker crosses at most one width of the box per step."
  },
  {
   "property": "C169",
   "status": "partial",
   "theorems": [
    "Verif.Moving.box_of_substeps",
    "Verif.Moving.flow_after",
    "Verif.Moving.rock_of_substeps_partial",
    "Verif.Moving.falls_behind_in_substeps",
    "Verif.Moving.drift_vanishes",
    "Verif.Moving.rock_depends_on_substeps",
    "Verif.Moving.wall_rock_lost_in_substeps",
    "Verif.Moving.lost_stays_lost"
   ],
   "note": "box_of_substeps: the box part, for any velocities. rock_of_substeps_partial: which rock is kept and its exact displacement for any number of substeps, by induction with the rates of each substep (flow_after); falls_behind_in_substeps: its drift against the wall, drift_vanishes: a bound on it inverse to the number of substeps. rock_depends_on_substeps disproves the property for the rock: one against two substeps of a step that halves the box. Left out: free surface (CellFlagging in the loop), periodic sides, reseeding; of the markers outside the final walls, those on a wall are covered (wall_rock_lost_in_substeps), the others per substep in C167 only."
  },
  {
   "property": "C17",
   "status": "partial",
   "theorems": [
    "Verif.LS.line_search_selects_partial",
    "Verif.LS.line_search_accepts_worse_step",
    "Verif.LS.line_search_reads_uninitialised_index",
    "Verif.LS.line_search_restores_fields",
    "Verif.LS.line_search_trials_start_from_initial",
    "Verif.LS.argmin_spec",
    "Verif.LS.trial_steps"
   ],
   "note": "false as stated: fallback criteria accept a step with a larger total norm; an uninitialised index is also read"
  },
  {
   "property": "C170",
   "status": "proved",
   "theorems": [
    "Verif.Hist.strain_is_rate_times_time",
    "Verif.Hist.strain_independent_of_substeps"
   ],
   "note": "By induction over the moments from the exactness of one update (C77, strain_uniform). The rates of the cells are inputs; that they are uniform for a uniform body is C154-C165."
  },
  {
   "property": "C171",
   "status": "partial",
   "theorems": [
    "Verif.BoxArea.area_of_step",
    "Verif.BoxArea.incompressible_balanced",
    "Verif.BoxArea.incompressible_loses_area",
    "Verif.BoxArea.incompressible_history_loses_area",
    "Verif.BoxArea.area_in_pure_shear",
    "Verif.BoxArea.area_is_lost",
    "Verif.BoxArea.area_loss_bound",
    "Verif.BoxArea.shear_sides",
    "Verif.BoxArea.history_exists"
   ],
   "note": "area_is_lost disproves the property for every history in pure shear; incompressible_history_loses_area for any history of flows in which no cell gains or loses volume; area_of_step gives the exact change for any balanced velocities of the sides, which incompressible flows are (incompressible_balanced, a discrete divergence theorem), area_in_pure_shear the exact area after any history, area_loss_bound what does hold (Bernoulli). history_exists: such histories exist from every box. No free surface (the top is then moved otherwise). By C169 substeps do not change the loss."
  },
  {
   "property": "C18",
   "status": "proved",
   "theorems": [
    "Verif.Adv.active_inside",
    "Verif.Adv.deactivated_iff",
    "Verif.Adv.periodic_reentry",
    "Verif.Adv.periodic_far_marker_escapes",
    "Verif.Adv.isout_pointwise"
   ],
   "note": "periodic_far_marker_escapes: displacement beyond one box width is not brought back"
  },
  {
   "property": "C19",
   "status": "proved",
   "theorems": [
    "Verif.Adv.rk4_classical",
    "Verif.Adv.rk4_uniform",
    "Verif.Adv.rk4_linear",
    "Verif.Adv.rk4_dead",
    "Verif.Adv.rogerGuntherII_pointwise"
   ],
   "note": "for markers that stay inside the box during the step"
  },
  {
   "property": "C20",
   "status": "proved",
   "theorems": [
    "Verif.Interp.velocity_between_nodes",
    "Verif.Interp.velocity_is_bilinear",
    "Verif.Interp.velocity_reads_existing_nodes",
    "Verif.Interp.velocity_exact_for_linear",
    "Verif.Interp.vertex_field_interpolation",
    "Verif.Interp.vertices2Particle_interpolation",
    "Verif.Interp.centre_field_interpolation",
    "Verif.Interp.centers2Particle_eq_interp",
    "Verif.Interp.centre_field_periodic",
    "Verif.Interp.bilinear_continuous",
    "Verif.Interp.bilinear_linear",
    "Verif.Interp.velocity_reads_existing_nodes_anywhere",
    "Verif.Interp.grid2P_reads_existing_nodes",
    "Verif.Interp.airFixX_ignores_air",
    "Verif.Interp.airFixZ_ignores_air_partial",
    "Verif.Interp.airFixZ_uses_air",
    "Verif.Interp.swapAir_ignores_air",
    "Verif.Interp.swapAir_vertical",
    "Verif.Interp.airMean_ignores_air",
    "Verif.Interp.grid2P_ignores_air",
    "Verif.Interp.correction_quadratic_x",
    "Verif.Interp.correction_quadratic_z"
   ],
   "note": "convexity is for plain interpolation; the optional conservative correction is not convex but exact for linear fields"
  },
  {
   "property": "C21",
   "status": "proved",
   "theorems": [
    "Verif.P2M.arithmetic_average_between",
    "Verif.P2M.harmonic_average_between",
    "Verif.P2M.geometric_average_between",
    "Verif.P2M.constant_reproduced",
    "Verif.P2M.unfed_nodes_unchanged",
    "Verif.P2M.weight_is_kernel",
    "Verif.P2M.makePeriodic_spec",
    "Verif.P2M.periodic_edge_touches_air"
   ],
   "note": "received weight means total weight of at least 1e-30, the threshold of the code"
  },
  {
   "property": "C22",
   "status": "proved",
   "theorems": [
    "Verif.P2M.phase_fractions",
    "Verif.P2M.phase_fractions_unnormalised_in_air"
   ],
   "note": "air nodes are excluded: the code leaves raw weights there (phase_fractions_unnormalised_in_air)"
  },
  {
   "property": "C23",
   "status": "proved",
   "theorems": [
    "Verif.P2M.p2m_schedule_independent",
    "Verif.Red.reduction_sum",
    "Verif.Red.minmax_schedule_independent",
    "Verif.Red.extremum_spec"
   ],
   "note": "the unsynchronised first test of the extrema may see any earlier value of the shared variable"
  },
  {
   "property": "C24",
   "status": "partial",
   "theorems": [
    "Verif.Red.tagged_extrema_partial",
    "Verif.Red.tagged_max_of_air"
   ],
   "note": "false when node 0 is air (tagged_max_of_air); holds otherwise"
  },
  {
   "property": "C25",
   "status": "partial",
   "theorems": [
    "Verif.Seed.reseed_slots_safe",
    "Verif.Seed.reseed_material_partial",
    "Verif.Seed.reseed_stops",
    "Verif.Seed.reseed_freed_counters"
   ],
   "note": "slots, capacity and live markers: proved. The number of markers wanted is read from a freed array, so any count may be used (reseed_freed_counters); material copied from the nearest live marker among the collected ones"
  },
  {
   "property": "C26",
   "status": "partial",
   "theorems": [
    "Verif.Seed.reseed_position_partial",
    "Verif.Seed.centroid_in_box",
    "Verif.Seed.reseed_above_surface"
   ],
   "note": "inside the box: proved. Below the surface: false, the guard is a disjunction (reseed_above_surface)"
  },
  {
   "property": "C27",
   "status": "partial",
   "theorems": [
    "Verif.Inflow.inflow_partial",
    "Verif.Inflow.inflow_cycle_partial",
    "Verif.Inflow.tagPass_spec",
    "Verif.Inflow.loop_ends",
    "Verif.Inflow.inflow_overflow",
    "Verif.Inflow.inflow_narrow_twice",
    "Verif.Inflow.inflow_stale_tag"
   ],
   "note": "false without spare capacity (inflow_overflow), in boxes narrower than two half cells (inflow_narrow_twice) and with stale tags of reused slots (inflow_stale_tag)"
  },
  {
   "property": "C28",
   "status": "proved",
   "theorems": [
    "Verif.Layout.layout_fills",
    "Verif.Layout.layout_surface",
    "Verif.Layout.layout_le_announced",
    "Verif.Layout.layout_noise_above_surface"
   ],
   "note": "layout_noise_above_surface: with position noise a marker may end above the surface (clean-up follows, C31)"
  },
  {
   "property": "C29",
   "status": "partial",
   "theorems": [
    "Verif.Layout.transmute_partial",
    "Verif.Layout.transmute_last",
    "Verif.Layout.transmute_dead"
   ],
   "note": "false: the last marker is skipped (transmute_last) and dead markers index the table with -1 (transmute_dead)"
  },
  {
   "property": "C30",
   "status": "proved",
   "theorems": [
    "Verif.Surf.surface_polyline",
    "Verif.Surf.polyline_unique"
   ],
   "note": ""
  },
  {
   "property": "C31",
   "status": "proved",
   "theorems": [
    "Verif.Surf.cleanup_spec"
   ],
   "note": "for markers of the box, whatever the order of the parallel loop"
  },
  {
   "property": "C32",
   "status": "partial",
   "theorems": [
    "Verif.Surf.remesh_partial",
    "Verif.Surf.remesh_succeeds",
    "Verif.Surf.remesh_recycled_dead",
    "Verif.Surf.remesh_recycling_useless"
   ],
   "note": "coverage and capacity proved; false for recycled markers, which keep the out-of-box flag (remesh_recycled_dead)"
  },
  {
   "property": "C33",
   "status": "partial",
   "theorems": [
    "Verif.Surf.sediment_partial",
    "Verif.Surf.sediment_phase",
    "Verif.Surf.sediment_gradient_singular",
    "Verif.Surf.sediment_overflow"
   ],
   "note": "position and phase proved; false: the deformation gradient is singular and the array bound is not checked"
  },
  {
   "property": "C34",
   "status": "partial",
   "theorems": [
    "Verif.Surf.diffusion_partial",
    "Verif.Surf.diffusion_half",
    "Verif.Surf.diffusion_parabola",
    "Verif.Surf.sedimentation_below_base"
   ],
   "note": "time, end points, extrema proved; false: only half the configured diffusivity acts (diffusion_half). Modelled for the plain diffusion mode"
  },
  {
   "property": "C35",
   "status": "partial",
   "theorems": [
    "Verif.Heat.heat_matrix_symmetric_partial",
    "Verif.Heat.heat_matrix_offdiag",
    "Verif.Heat.heat_matrix_dominant_partial",
    "Verif.Heat.heat_matrix_posdef",
    "Verif.Heat.heat_solution_exists_unique",
    "Verif.Heat.heat_matrix_fits",
    "Verif.Heat.heat_balance_iff",
    "Verif.Heat.setBCT_tags_agree",
    "Verif.Heat.heat_periodic_uneven_not_symmetric",
    "Verif.Heat.heat_periodic_air_column"
   ],
   "note": "proved unless the sides are periodic with different conductivities (matrix not symmetric) or face an air cell (column -1 stored)"
  },
  {
   "property": "C36",
   "status": "partial",
   "theorems": [
    "Verif.Heat.heat_steps_bounded_partial",
    "Verif.Heat.heat_uniform_steady_partial",
    "Verif.Heat.heat_no_negative_exit",
    "Verif.Heat.heat_step_exists",
    "Verif.Heat.heat_periodic_uneven_not_symmetric"
   ],
   "note": "proved for any number of solves; false on periodic sides with different conductivities (a uniform temperature changes)"
  },
  {
   "property": "C37",
   "status": "proved",
   "theorems": [
    "Verif.Heat.heat_content_conserved",
    "Verif.Heat.heat_content_gains_sources",
    "Verif.Heat.sides_as_prescribed",
    "Verif.Heat.heat_conservation",
    "Verif.Heat.heat_step_balance",
    "Verif.Heat.bottom_flux_uses_dx"
   ],
   "note": "finding: a prescribed bottom flux is scaled by dx instead of dz"
  },
  {
   "property": "C38",
   "status": "partial",
   "theorems": [
    "Verif.Bp.breakpoint_round_trip_partial",
    "Verif.Bp.round_trip_items",
    "Verif.Bp.old_stress_not_restored",
    "Verif.Bp.advection_velocity_rescaled"
   ],
   "note": "proved for every stored quantity except the old stresses sxxd0, szzd0, sxz0, which are read into sxxd, szzd, sxz"
  },
  {
   "property": "C39",
   "status": "proved",
   "theorems": [
    "Verif.Bp.writing_leaves_memory"
   ],
   "note": ""
  },
  {
   "property": "C40",
   "status": "partial",
   "theorems": [
    "Verif.Run.crash_keeps_breakpoint_partial",
    "Verif.Run.crash_labels_partial",
    "Verif.Run.at_most_three_files",
    "Verif.Run.mislabelled_breakpoint",
    "Verif.Run.restart_mislabelled_skips",
    "Verif.Run.single_file_can_be_lost",
    "Verif.Bp.empty_file_accepted"
   ],
   "note": "the last completed breakpoint survives every crash point; false that labels are right: the rename before the rewrite leaves a complete file of an older step under the new label; delete_breakpoints=-1 can lose everything"
  },
  {
   "property": "C41",
   "status": "partial",
   "theorems": [
    "Verif.Run.steps_executed",
    "Verif.Run.restart_follows",
    "Verif.Run.restart_same_state_partial"
   ],
   "note": "proved for the restored part of the state; the old stresses are not restored (C38)"
  },
  {
   "property": "C42",
   "status": "proved",
   "theorems": [
    "Verif.Input.readNum_spec",
    "Verif.Input.readNum_history_independent",
    "Verif.Input.readNum_ends",
    "Verif.Input.readNum_last_line_needs_newline",
    "Verif.Input.readNum_stale_value"
   ],
   "note": "lines of at most 998 characters, empty or with a blank behind the second character; limits shown: unterminated last line ignored, a key line without equal sign takes leftovers of an earlier line"
  },
  {
   "property": "C43",
   "status": "proved",
   "theorems": [
    "Verif.Input.readMatProps_spec",
    "Verif.Input.readMatProps_freed"
   ],
   "note": "same file format; some line must follow the ID line; limit shown: a parameter line without equal sign leads to use of freed memory"
  },
  {
   "property": "C44",
   "status": "partial",
   "theorems": [
    "Verif.Input.readChar_partial",
    "Verif.Input.readChar_default_partial",
    "Verif.Input.readChar_order_matters",
    "Verif.Input.readChar_prefix_matters",
    "Verif.Input.readChar_long_value"
   ],
   "note": "false as stated: the reader continues from the current position and compares only a prefix of the line; import_file above import_files_dir is lost"
  },
  {
   "property": "C45",
   "status": "proved",
   "theorems": [
    "Verif.Config.scale_identities",
    "Verif.Config.momentum_form",
    "Verif.Config.rheology_form",
    "Verif.Config.heat_form",
    "Verif.Config.scales_nonzero"
   ],
   "note": "every field; the four basic scales non-zero"
  },
  {
   "property": "C46",
   "status": "partial",
   "theorems": [
    "Verif.Setup.validatePhase_partial",
    "Verif.Setup.phase_accepted_without_material",
    "Verif.Setup.loaded_phase_unchecked"
   ],
   "note": "false as stated: the phase equal to the number of materials and negative phases are accepted (shown, with the exact set); phases loaded from a marker file are not checked"
  },
  {
   "property": "C47",
   "status": "proved",
   "theorems": [
    "Verif.Setup.posVx_sides",
    "Verif.Setup.posVz_sides",
    "Verif.Setup.posP_sides",
    "Verif.Setup.posP_freeSurface",
    "Verif.Setup.setP_spec",
    "Verif.Setup.setVx_iff",
    "Verif.Setup.setVx_spec",
    "Verif.Setup.setVz_iff",
    "Verif.Setup.setVz_spec",
    "Verif.Setup.template_Vx",
    "Verif.Setup.template_Vz",
    "Verif.Setup.template_values"
   ],
   "note": "grids of at least 2x2 nodes; any pattern of air nodes"
  },
  {
   "property": "C48",
   "status": "proved",
   "theorems": [
    "Verif.Setup.pure_shear_flux",
    "Verif.Setup.pure_shear_area"
   ],
   "note": "boxes without air; area changes by the factor 1-(eps*dt)^2 exactly"
  },
  {
   "property": "C49",
   "status": "partial",
   "theorems": [
    "Verif.Setup.correction_balances_partial",
    "Verif.Setup.smooth_ends",
    "Verif.Setup.smooth_range",
    "Verif.Setup.smoothPass_sum",
    "Verif.Setup.balanceX_spec",
    "Verif.Setup.balanceX_range",
    "Verif.Setup.balanced_side_has_flux",
    "Verif.Setup.balanceS_spec",
    "Verif.Setup.southern_side_has_flux"
   ],
   "note": "false as stated: the smoothing after the correction changes the sum (witness; exact change per pass proved), and the southern side also corrects its two ghost corners; no new extrema and fixed ends are proved"
  },
  {
   "property": "C50",
   "status": "partial",
   "theorems": [
    "Verif.Setup.isEllipse_iff",
    "Verif.Setup.ellipse_partial",
    "Verif.Setup.ellipse_loses_centre",
    "Verif.Setup.isRectangle_iff",
    "Verif.Setup.rectangle_partial",
    "Verif.Setup.rectangle_loses_centre"
   ],
   "note": "false as stated: the ellipse is drawn about its centre turned by twice the angle, the rectangle about its centre turned by the angle (both proved); holds for centre at the origin or no rotation"
  },
  {
   "property": "C51",
   "status": "partial",
   "theorems": [
    "Verif.Rheo.softenLinear_partial",
    "Verif.Rheo.softenErf_partial",
    "Verif.Rheo.softenLinear_ends",
    "Verif.Rheo.soften_off",
    "Verif.Rheo.softenLinear_zero",
    "Verif.Rheo.softenLinear_overshoots",
    "Verif.Rheo.softenLinear_jump",
    "Verif.Rheo.softenLinear_continuous",
    "Verif.Rheo.softenLinear_discontinuous"
   ],
   "note": "false as stated for a positive onset strain: the linear law does not subtract the onset strain, so it jumps there and overshoots (witnesses); proved for onset strain zero and for the error-function law"
  },
  {
   "property": "C52",
   "status": "partial",
   "theorems": [
    "Verif.Rheo.plastic_partial",
    "Verif.Units.default_tolerance_on_yield",
    "Verif.Rheo.yield_cap",
    "Verif.Rheo.plastic_inactive",
    "Verif.Rheo.plastic_dilation_iff",
    "Verif.Rheo.plastic_exponent_misses",
    "Verif.Aniso.plasticAniso_on_yield"
   ],
   "note": "proved without dilation and for linear overstress; with dilation the iteration leaves the yield surface (exact condition proved), and overstress exponents other than one miss it; the anisotropic routine without the Mises cut-off ends on it"
  },
  {
   "property": "C53",
   "status": "partial",
   "theorems": [
    "Verif.Rheo.averages_partial",
    "Verif.Rheo.limiter_spec",
    "Verif.Rheo.phase_sum",
    "Verif.Rheo.weighted_bounds",
    "Verif.Rheo.averages_tiny_fraction",
    "Verif.Rheo.averages_any"
   ],
   "note": "bounds and order of the three averages for fractions that are zero or above 1e-13; smaller fractions are dropped without renormalising (witness); the anisotropic routine applies no viscosity cut-off"
  },
  {
   "property": "C54",
   "status": "proved",
   "theorems": [
    "Verif.Aniso.rotated_is_grid",
    "Verif.Aniso.assembly_is_grid",
    "Verif.Aniso.grid_is_transverse",
    "Verif.Aniso.isotropic",
    "Verif.Aniso.rotate_invariants",
    "Verif.Aniso.rotateBack_rotate",
    "Verif.Aniso.layered_invariant",
    "Verif.Aniso.symmetric",
    "Verif.Aniso.dissipative",
    "Verif.Aniso.director_disk",
    "Verif.Aniso.disk_convex",
    "Verif.Aniso.average_has_no_frame",
    "Verif.Aniso.factor_range",
    "Verif.Aniso.layerOf_eq",
    "Verif.Aniso.local_is_grid",
    "Verif.Aniso.local_is_mirrored",
    "Verif.Aniso.local_differs"
   ],
   "note": "symmetric and dissipative also for directors averaged over markers, which belong to no rotated frame; the layer-frame values computed from acos are mirrored for half of the orientations (shown), only their invariants are used"
  },
  {
   "property": "C55",
   "status": "proved",
   "theorems": [
    "Verif.Rheo.effective_inverts",
    "Verif.Rheo.effective_isotropic"
   ],
   "note": ""
  },
  {
   "property": "C56",
   "status": "proved",
   "theorems": [
    "Verif.Melt.melt_range",
    "Verif.Melt.melt_none",
    "Verif.Melt.melt_mono",
    "Verif.Melt.melt_equilibrium",
    "Verif.Melt.meltCell_range",
    "Verif.Melt.melt_unknown"
   ],
   "note": "for the five models the code knows; the solidus is the one kept 100 K below the liquidus; an unknown positive model number melts everything (shown)"
  },
  {
   "property": "C57",
   "status": "partial",
   "theorems": [
    "Verif.Melt.lookup1_partial",
    "Verif.Melt.lookup2_partial",
    "Verif.Melt.lower_range",
    "Verif.Melt.lookup1_node",
    "Verif.Melt.lookup1_lower_limit",
    "Verif.Melt.lookup2_lower_limit"
   ],
   "note": "false exactly at the lower limit of the table, where the entry before the table is read (shown)"
  },
  {
   "property": "C58",
   "status": "partial",
   "theorems": [
    "Verif.Flag.solved_cell_faces",
    "Verif.Flag.temperature_with_pressure",
    "Verif.Flag.rock_velocity_has_cell_partial",
    "Verif.Flag.cell_above_surface",
    "Verif.Flag.solved_cell_neighbours",
    "Verif.Flag.vertex_in_rock",
    "Verif.Flag.side_velocity_without_cell",
    "Verif.Flag.active_vertex_reason"
   ],
   "note": "proved except on the side columns, where the tag is copied from the next column (side_velocity_without_cell)"
  },
  {
   "property": "C59",
   "status": "proved",
   "theorems": [
    "Verif.Grid.grid_indices_inverse",
    "Verif.Grid.grid_coordinates",
    "Verif.Grid.grid_lines"
   ],
   "note": ""
  },
  {
   "property": "C60",
   "status": "proved",
   "theorems": [
    "Verif.GridField.centroidsToVertices_spec",
    "Verif.GridField.centroidsToVertices_bounds",
    "Verif.GridField.centroidsToVertices_frame",
    "Verif.GridField.cellsAt_mem",
    "Verif.GridField.centroidsToVertices_surface_reduced",
    "Verif.GridField.verticesToCentroids_spec"
   ],
   "note": "the full value at every vertex is given; at vertices that touch air the sum over rock cells is still divided by four, so constants are not kept there (shown)"
  },
  {
   "property": "C61",
   "status": "proved",
   "theorems": [
    "Verif.GridField.lith_difference",
    "Verif.GridField.lith_monotone",
    "Verif.GridField.lith_weight",
    "Verif.GridField.lith_air",
    "Verif.GridField.lith_top_cell_missing"
   ],
   "note": "differences as stated; with air on top the pressure is the exact weight above; without air the weight of the top cell is missing in the whole column (shown)"
  },
  {
   "property": "C62",
   "status": "proved",
   "theorems": [
    "Verif.Config.resolve_consistent",
    "Verif.Config.resolve_accepts",
    "Verif.Config.resolve_keeps_consistent",
    "Verif.Config.capacity_four",
    "Verif.Config.capacity_initial",
    "Verif.Config.other_shear_style_not_periodic"
   ],
   "note": "shear styles 0 and 1; any other style selects the periodic templates without periodicity (shown); exact arithmetic, no 32-bit overflow"
  },
  {
   "property": "C63",
   "status": "partial",
   "theorems": [
    "Verif.Surf.zero_mean_partial",
    "Verif.Surf.zero_mean_counts_unused"
   ],
   "note": "nodal heights proved; false for the chain: unused slots enter the mean"
  },
  {
   "property": "C64",
   "status": "proved",
   "theorems": [
    "Verif.Surf.projection_between",
    "Verif.Surf.finer_between",
    "Verif.Surf.projection_west_side",
    "Verif.Surf.finer_exact"
   ],
   "note": "a column counts as covered if it has a live marker in its middle half; a marker exactly on the western side is attributed to column -1 (projection_west_side)"
  },
  {
   "property": "C65",
   "status": "partial",
   "theorems": [
    "Verif.GridField.upwind_partial",
    "Verif.GridField.upwind_eq",
    "Verif.GridField.upwind_half_step"
   ],
   "note": "no new extrema is proved; false that the field advances by the time step: both passes start from the old field, so only half of it is covered (shown); the routine has no caller"
  },
  {
   "property": "C66",
   "status": "proved",
   "theorems": [
    "Verif.Time.initial_dt_below_maxwell"
   ],
   "note": ""
  },
  {
   "property": "C67",
   "status": "proved",
   "theorems": [
    "Verif.Adv.courant_limits_displacement",
    "Verif.Adv.rk4_displacement",
    "Verif.Adv.gridVel_bounded"
   ],
   "note": ""
  },
  {
   "property": "C68",
   "status": "partial",
   "theorems": [
    "Verif.P2M.periodic_shift_partial",
    "Verif.P2M.centre_weight_shift",
    "Verif.P2M.periodic_vertex_shift_fails"
   ],
   "note": "holds for cell centres; false for vertex fields, whose weights wrap with the wrong period (periodic_vertex_shift_fails)"
  },
  {
   "property": "C69",
   "status": "proved",
   "theorems": [
    "Verif.Surf.initial_surface_below"
   ],
   "note": ""
  },
  {
   "property": "C70",
   "status": "proved",
   "theorems": [
    "Verif.Heat.chemical_bounded",
    "Verif.Heat.chemical_conserved",
    "Verif.Heat.matrixChem_eq"
   ],
   "note": "for any value of the uninitialised lower cut-off; sides not periodic, or periodic with equal diffusivities"
  },
  {
   "property": "C71",
   "status": "proved",
   "theorems": [
    "Verif.columns_are_equations",
    "Verif.x_stencil_nodes",
    "Verif.z_stencil_nodes",
    "Verif.c_stencil_nodes",
    "Verif.colNumber_range"
   ],
   "note": "for the Picard isotropic rows; the hypothesis on solved cells is what C58 establishes"
  },
  {
   "property": "C72",
   "status": "proved",
   "theorems": [
    "Verif.Setup.setParticles_spec",
    "Verif.Setup.setParticles_stops"
   ],
   "note": "deformation gradient and anisotropy angle not modelled"
  },
  {
   "property": "C73",
   "status": "partial",
   "theorems": [
    "Verif.Setup.defaultName_spec",
    "Verif.Setup.defaultName_overflows"
   ],
   "note": "the name is right if the byte behind the block happens to be zero; five bytes are always written beyond the block"
  },
  {
   "property": "C74",
   "status": "proved",
   "theorems": [
    "Verif.Aniso.director_unit",
    "Verif.Aniso.director_unit_history",
    "Verif.Aniso.initDirector_eq",
    "Verif.Aniso.director_is_normal",
    "Verif.Aniso.director_sign",
    "Verif.Aniso.director_rigid"
   ],
   "note": ""
  },
  {
   "property": "C75",
   "status": "partial",
   "theorems": [
    "Verif.LocalIter.run_partition",
    "Verif.LocalIter.run_bounds",
    "Verif.LocalIter.run_succeeds",
    "Verif.LocalIter.slope_is_derivative",
    "Verif.LocalIter.rates_flow",
    "Verif.LocalIter.gbs_is_lost",
    "Verif.LocalIter.gbs_alone_divides_by_zero"
   ],
   "note": "false for grain boundary sliding, whose coefficient is never assigned (shown); proved for the other mechanisms"
  },
  {
   "property": "C76",
   "status": "partial",
   "theorems": [
    "Verif.Melt.heatCapacity_partial",
    "Verif.Melt.heatCapacity_first_cell_air"
   ],
   "note": "false as stated: the flag of the first cell of the grid is tested in place of the cell's own; if it is air every rock cell gets zero"
  },
  {
   "property": "C77",
   "status": "partial",
   "theorems": [
    "Verif.Hist.strain_never_decreases_partial",
    "Verif.Hist.strain_history_partial",
    "Verif.Hist.strain_uniform",
    "Verif.Hist.strain_can_decrease"
   ],
   "note": "proved between the outermost cell centres; false in the half cells along the sides, where the weights extrapolate and turn negative (witness); homogeneous flow exact everywhere"
  },
  {
   "property": "C78",
   "status": "proved",
   "theorems": [
    "Verif.Hist.deform_is_product",
    "Verif.Hist.deformation_history",
    "Verif.Hist.deformation_gradient_affine",
    "Verif.Hist.deformation_gradient_translation"
   ],
   "note": ""
  },
  {
   "property": "C79",
   "status": "proved",
   "theorems": [
    "Verif.Hist.aspect_ratio_of_strain_ellipse",
    "Verif.Hist.aspect_ratio_facts",
    "Verif.Hist.stretches_unique"
   ],
   "note": ""
  },
  {
   "property": "C80",
   "status": "proved",
   "theorems": [
    "Verif.Hist.peak_is_maximum"
   ],
   "note": ""
  },
  {
   "property": "C81",
   "status": "proved",
   "theorems": [
    "Verif.Hist.fraction_in_range",
    "Verif.Hist.fraction_is_sum",
    "Verif.Hist.fraction_unchanged"
   ],
   "note": ""
  },
  {
   "property": "C82",
   "status": "partial",
   "theorems": [
    "Verif.Hist.stress_never_rotated",
    "Verif.Hist.rotation_needed",
    "Verif.Hist.vorticity_of_rotation",
    "Verif.Hist.rotation_formulas",
    "Verif.Hist.rotation_invariants"
   ],
   "note": "false: the vorticity is never fetched (the call interpolates a zero marker array onto the vorticity grid), so no stress is ever rotated; what the formulas would do is proved, including that mode 2 turns against the material"
  },
  {
   "property": "C83",
   "status": "proved",
   "theorems": [
    "Verif.Hist.plain_update_bounded",
    "Verif.Hist.plain_update_uniform",
    "Verif.Hist.uniform_change_reaches_markers",
    "Verif.Hist.subgrid_update_consistent",
    "Verif.Hist.subgrid_uniform_offset_kept",
    "Verif.Hist.subgrid_moves_towards_grid",
    "Verif.Hist.damp_range",
    "Verif.Hist.switches"
   ],
   "note": "uniform-offset part for equal relaxation rates and every cell fed by markers"
  },
  {
   "property": "C84",
   "status": "partial",
   "theorems": [
    "Verif.Hist.relaxation_independent_of_units",
    "Verif.Hist.pressure_relaxation_depends_on_units"
   ],
   "note": "proved for temperature and stress; false for pressure, whose relaxation time is viscosity divided (not multiplied) by compressibility"
  },
  {
   "property": "C85",
   "status": "partial",
   "theorems": [
    "Verif.Hist.stress_change_reaches_markers",
    "Verif.Hist.switches"
   ],
   "note": "proved for the values 0, 1, 2; for any other value the stress change is silently dropped (second half of the theorem)"
  },
  {
   "property": "C86",
   "status": "proved",
   "theorems": [
    "Verif.Kin.linear_flow_exact",
    "Verif.Kin.rigid_motion_unnoticed",
    "Verif.Kin.normal_rates_trace",
    "Verif.Kin.air_rates_zero"
   ],
   "note": ""
  },
  {
   "property": "C87",
   "status": "partial",
   "theorems": [
    "Verif.Kin.cell_shear_exact_partial",
    "Verif.Kin.vertex_normal_rates_partial",
    "Verif.Kin.surface_cell_shear_reduced"
   ],
   "note": "proved away from air; a cell with an air corner loses a quarter of the shear rate per corner (third theorem), a vertex a quarter of the normal rates per air cell"
  },
  {
   "property": "C88",
   "status": "proved",
   "theorems": [
    "Verif.Ksp.returned_vector",
    "Verif.Ksp.loop_fuel"
   ],
   "note": ""
  },
  {
   "property": "C89",
   "status": "partial",
   "theorems": [
    "Verif.Ksp.first_cycle_optimal_partial",
    "Verif.Ksp.exact_preconditioner"
   ],
   "note": "optimality is proved up to the first restart (6 directions); after it the loop i2<i1+1 also subtracts a direction left over from the previous cycle with a stale coefficient, so the code gives no such guarantee"
  },
  {
   "property": "C90",
   "status": "partial",
   "theorems": [
    "Verif.Ksp.solution_is_ruined",
    "Verif.Ksp.perpendicular_step_ruins",
    "Verif.Ksp.exact_preconditioner"
   ],
   "note": "false: starting at the solution divides zero by zero, a step with no progress breaks down in the next one (both proved); proved for an exact preconditioner and a start that is not the solution"
  },
  {
   "property": "C91",
   "status": "partial",
   "theorems": [
    "Verif.PH.killer_blocks",
    "Verif.PH.killer_blocks_fit",
    "Verif.PH.comp_blocks_misread"
   ],
   "note": "proved for the default solver; false for the direct compressible and the Krylov solver as soon as there are air cells: the inverse is read at the cell number instead of the equation number"
  },
  {
   "property": "C92",
   "status": "proved",
   "theorems": [
    "Verif.PH.momentum_is_krylov_residual",
    "Verif.PH.iteration_momentum",
    "Verif.PH.compressible_cells_exact",
    "Verif.PH.incompressible_cells_penalty",
    "Verif.PH.fixed_points_are_solutions"
   ],
   "note": "for Picard iterations (same divergence block in the matrix and in the update)"
  },
  {
   "property": "C93",
   "status": "partial",
   "theorems": [
    "Verif.PH.accepted_partial",
    "Verif.PH.negative_divergence_accepted",
    "Verif.PH.momentum_not_checked"
   ],
   "note": "the upper bound on the continuity residual is proved; false from below (only the signed maximum is tested) and for momentum (not tested after the loop)"
  },
  {
   "property": "C94",
   "status": "proved",
   "theorems": [
    "Verif.PH.direct_momentum_exact",
    "Verif.PH.direct_divergence_decreases",
    "Verif.PH.direct_converges"
   ],
   "note": "exact arithmetic, factorisation as an exact solve of the lower-triangle-symmetrised matrix; the stopping test is not part of the statement; an input file cannot select this solver any more (C144)"
  },
  {
   "property": "C95",
   "status": "partial",
   "theorems": [
    "Verif.Dens.linear_reference",
    "Verif.Dens.exponential_reference",
    "Verif.Dens.hotter_not_denser",
    "Verif.Dens.deeper_not_lighter",
    "Verif.Dens.density_positive_partial",
    "Verif.Dens.exponential_compressibility",
    "Verif.Dens.linear_compressibility",
    "Verif.Dens.linear_negative",
    "Verif.Dens.unknown_density_model"
   ],
   "note": "analytic laws (models 0, 1, 3, 5); false for the linear law: it becomes negative at high temperature and its compressibility is the parameter at the reference pressure only; an unknown model number returns an uninitialised variable; the tabulated models are look-ups (see C85)"
  },
  {
   "property": "C96",
   "status": "proved",
   "theorems": [
    "Verif.Dens.cell_density_between",
    "Verif.Dens.air_cell_weightless"
   ],
   "note": "fractions that are neither zero nor above 1e-13 are dropped by the code and excluded here"
  },
  {
   "property": "C97",
   "status": "partial",
   "theorems": [
    "Verif.Dens.modulus_between",
    "Verif.Dens.expansivity_between",
    "Verif.Dens.air_moduli",
    "Verif.Dens.periodic_moduli",
    "Verif.Dens.empty_node_no_modulus",
    "Verif.Dens.cohesion_noise"
   ],
   "note": "a node below the surface without any phase has an infinite modulus (proved); the code stops for a cell but only prints a message for a vertex"
  },
  {
   "property": "C98",
   "status": "proved",
   "theorems": [
    "Verif.Dens.progress_implicit",
    "Verif.Dens.progress_between",
    "Verif.Dens.progress_history"
   ],
   "note": "erfc is a parameter with values in [0,2]"
  },
  {
   "property": "C99",
   "status": "partial",
   "theorems": [
    "Verif.Dens.mixture_end_members",
    "Verif.Dens.mixture_between",
    "Verif.Dens.mixture_geometric",
    "Verif.Dens.mixture_prefactor_partial",
    "Verif.Dens.mixture_forgets_pressure",
    "Verif.Dens.mixture_correction_partial",
    "Verif.Dens.mixture_correction_not_cancelled"
   ],
   "note": "exponent, activation energy and pre-exponential factor are as stated; false for the viscosity: the mixture drops activation volume, grain size, fugacity and melt dependence, and ignores a cancelled correction"
  }
 ]
}