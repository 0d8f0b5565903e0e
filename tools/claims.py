c("C01", "proved", ["numbering_bijective"])
c("C02", "proved", ["increments_reach_solved", "pack_spec", "pack_after_increment", "back_to_solution_vector"],
  "prescribed (tag 0) nodes keep the value they already hold; ghosts and periodic copies are set by ApplyBC")
c("C03", "partial", ["applyBC_enforces_partial", "applyBC_idempotent_partial", "increments_reach_solved", "applyBC_stale_corner"],
  "holds when east-periodic Vx nodes agree with their west twin before the call (always so inside ExtractSolutions2); applyBC_stale_corner shows the code violates the property otherwise")
c("C04", "proved", ["decomposition_partition"])
c("C05", "proved", ["assembly_merged", "assembly_thread_independent", "assembly_hyps_u"],
  "one matrix block per call; rows are arbitrary coefficient lists, equation numbers injective on solved nodes (discharged for Vx by assembly_hyps_u)")
c("C07", "proved", ["elimination_preserves_equation"])
c("C08", "proved", ["x_row_stress_balance", "x_row_stress_balance_periodic", "z_row_stress_balance",
  "x_row_stress_west", "x_row_stress_east", "z_row_stress_south", "z_row_stress_north", "x_stabilisation", "z_stabilisation"],
  "isotropic Picard rows (interior, wall-adjacent, periodic and stress boundaries); for the Newton rows see C119")
c("C09", "proved", ["rigid_no_strain", "rigid_no_force_x", "rigid_no_force_z"],
  "rows away from walls and air, no free-surface stabilisation (which is proportional to velocity by design)")
c("C10", "proved", ["stokes_velocity_block_symmetric", "gradient_is_minus_divergence_transpose"],
  "interior solved nodes, no periodic sides, no stress boundary nodes; isotropic D11 = D22 vanishing in air")
c("C06", "partial", ["assembly_buffers_fit_partial", "assembly_buffer_overflow"],
  "the property is false for the code: assembly_buffer_overflow is a 10x8 grid on 16 threads; it holds for grids of at least 6x6 vertices with 4 (n-1)^2 <= number of cells")
c("C11", "proved", ["Sparse.scaled_rhs_equivalent", "Sparse.scaled_system_equivalent", "Sparse.unscaled_solution_reached",
  "Sparse.scaling_preserves_symmetry", "Sparse.scaling_preserves_transpose", "Sparse.extracted_factors", "Sparse.picard_scaling_correct"])
c("C12", "proved", ["Sparse.triplets_label_rows", "Sparse.permutation_round_trip"])
c("C13", "proved", ["Time.dt_within_bounds", "Time.dt_growth_limited", "Time.dt_courant", "Time.dt_limit_attained",
  "Time.vmax_spec", "Time.dt_growth_not_limited_at_rest"],
  "with negligible motion the code falls back to the start value, so growth is unlimited there (dt_growth_not_limited_at_rest)")
c("C14", "proved", ["Time.substeps_cover_step"])
c("C15", "partial", ["Time.model_time_equals_advected_partial", "Time.clock_bookkeeping", "Time.model_time_differs_after_restart", "Time.loop_dt"],
  "false for the code after a safe-mode restart: the clock keeps the unreduced step (model_time_differs_after_restart)")
c("C16", "proved", ["Time.loop_terminates", "Time.converged_means_converged", "Time.safe_mode_never_continues_unconverged", "Time.loop_dt"])
c("C17", "partial", ["LS.line_search_selects_partial", "LS.line_search_accepts_worse_step", "LS.line_search_reads_uninitialised_index",
  "LS.line_search_restores_fields", "LS.line_search_trials_start_from_initial", "LS.argmin_spec", "LS.trial_steps"],
  "false as stated: fallback criteria accept a step with a larger total norm; an uninitialised index is also read")
c("C66", "proved", ["Time.initial_dt_below_maxwell"])
c("C18", "proved", ["Adv.active_inside", "Adv.deactivated_iff", "Adv.periodic_reentry", "Adv.periodic_far_marker_escapes", "Adv.isout_pointwise"],
  "periodic_far_marker_escapes: displacement beyond one box width is not brought back")
c("C19", "proved", ["Adv.rk4_classical", "Adv.rk4_uniform", "Adv.rk4_linear", "Adv.rk4_dead", "Adv.rogerGuntherII_pointwise"],
  "for markers that stay inside the box during the step")
c("C20", "proved", ["Interp.velocity_between_nodes", "Interp.velocity_is_bilinear", "Interp.velocity_reads_existing_nodes",
  "Interp.velocity_exact_for_linear", "Interp.vertex_field_interpolation", "Interp.vertices2Particle_interpolation",
  "Interp.centre_field_interpolation", "Interp.centers2Particle_eq_interp", "Interp.centre_field_periodic",
  "Interp.bilinear_continuous", "Interp.bilinear_linear", "Interp.velocity_reads_existing_nodes_anywhere", "Interp.grid2P_reads_existing_nodes", "Interp.airFixX_ignores_air", "Interp.airFixZ_ignores_air_partial", "Interp.airFixZ_uses_air", "Interp.swapAir_ignores_air", "Interp.swapAir_vertical", "Interp.airMean_ignores_air", "Interp.grid2P_ignores_air", "Interp.correction_quadratic_x", "Interp.correction_quadratic_z"],
  "convexity is for plain interpolation; the optional conservative correction is not convex but exact for linear fields")
c("C67", "proved", ["Adv.courant_limits_displacement", "Adv.rk4_displacement", "Adv.gridVel_bounded"])
c("C21", "proved", ["P2M.arithmetic_average_between", "P2M.harmonic_average_between", "P2M.geometric_average_between",
  "P2M.constant_reproduced", "P2M.unfed_nodes_unchanged", "P2M.weight_is_kernel", "P2M.makePeriodic_spec", "P2M.periodic_edge_touches_air"],
  "received weight means total weight of at least 1e-30, the threshold of the code")
c("C22", "proved", ["P2M.phase_fractions", "P2M.phase_fractions_unnormalised_in_air"],
  "air nodes are excluded: the code leaves raw weights there (phase_fractions_unnormalised_in_air)")
c("C23", "proved", ["P2M.p2m_schedule_independent", "Red.reduction_sum", "Red.minmax_schedule_independent", "Red.extremum_spec"],
  "the unsynchronised first test of the extrema may see any earlier value of the shared variable")
c("C24", "partial", ["Red.tagged_extrema_partial", "Red.tagged_max_of_air"],
  "false when node 0 is air (tagged_max_of_air); holds otherwise")
c("C68", "partial", ["P2M.periodic_shift_partial", "P2M.centre_weight_shift", "P2M.periodic_vertex_shift_fails"],
  "holds for cell centres; false for vertex fields, whose weights wrap with the wrong period (periodic_vertex_shift_fails)")
c("C25", "partial", ["Seed.reseed_slots_safe", "Seed.reseed_material_partial", "Seed.reseed_stops", "Seed.reseed_freed_counters"],
  "slots, capacity and live markers: proved. The number of markers wanted is read from a freed array, so any count may be used (reseed_freed_counters); material copied from the nearest live marker among the collected ones")
c("C26", "partial", ["Seed.reseed_position_partial", "Seed.centroid_in_box", "Seed.reseed_above_surface"],
  "inside the box: proved. Below the surface: false, the guard is a disjunction (reseed_above_surface)")
c("C27", "partial", ["Inflow.inflow_partial", "Inflow.inflow_cycle_partial", "Inflow.tagPass_spec", "Inflow.loop_ends",
  "Inflow.inflow_overflow", "Inflow.inflow_narrow_twice", "Inflow.inflow_stale_tag"],
  "false without spare capacity (inflow_overflow), in boxes narrower than two half cells (inflow_narrow_twice) and with stale tags of reused slots (inflow_stale_tag)")
c("C28", "proved", ["Layout.layout_fills", "Layout.layout_surface", "Layout.layout_le_announced", "Layout.layout_noise_above_surface"],
  "layout_noise_above_surface: with position noise a marker may end above the surface (clean-up follows, C31)")
c("C29", "partial", ["Layout.transmute_partial", "Layout.transmute_last", "Layout.transmute_dead"],
  "false: the last marker is skipped (transmute_last) and dead markers index the table with -1 (transmute_dead)")
c("C59", "proved", ["Grid.grid_indices_inverse", "Grid.grid_coordinates", "Grid.grid_lines"])
c("C30", "proved", ["Surf.surface_polyline", "Surf.polyline_unique"])
c("C31", "proved", ["Surf.cleanup_spec"], "for markers of the box, whatever the order of the parallel loop")
c("C32", "partial", ["Surf.remesh_partial", "Surf.remesh_succeeds", "Surf.remesh_recycled_dead", "Surf.remesh_recycling_useless"],
  "coverage and capacity proved; false for recycled markers, which keep the out-of-box flag (remesh_recycled_dead)")
c("C33", "partial", ["Surf.sediment_partial", "Surf.sediment_phase", "Surf.sediment_gradient_singular", "Surf.sediment_overflow"],
  "position and phase proved; false: the deformation gradient is singular and the array bound is not checked")
c("C34", "partial", ["Surf.diffusion_partial", "Surf.diffusion_half", "Surf.diffusion_parabola", "Surf.sedimentation_below_base"],
  "time, end points, extrema proved; false: only half the configured diffusivity acts (diffusion_half). Modelled for the plain diffusion mode")
c("C63", "partial", ["Surf.zero_mean_partial", "Surf.zero_mean_counts_unused"],
  "nodal heights proved; false for the chain: unused slots enter the mean")
c("C64", "proved", ["Surf.projection_between", "Surf.finer_between", "Surf.projection_west_side", "Surf.finer_exact"],
  "a column counts as covered if it has a live marker in its middle half; a marker exactly on the western side is attributed to column -1 (projection_west_side)")
c("C58", "partial", ["Flag.solved_cell_faces", "Flag.temperature_with_pressure", "Flag.rock_velocity_has_cell_partial", "Flag.cell_above_surface",
  "Flag.solved_cell_neighbours", "Flag.vertex_in_rock", "Flag.side_velocity_without_cell", "Flag.active_vertex_reason"],
  "proved except on the side columns, where the tag is copied from the next column (side_velocity_without_cell)")
c("C69", "proved", ["Surf.initial_surface_below"])
c("C35", "partial", ["Heat.heat_matrix_symmetric_partial", "Heat.heat_matrix_offdiag", "Heat.heat_matrix_dominant_partial",
  "Heat.heat_matrix_posdef", "Heat.heat_solution_exists_unique", "Heat.heat_matrix_fits", "Heat.heat_balance_iff", "Heat.setBCT_tags_agree",
  "Heat.heat_periodic_uneven_not_symmetric", "Heat.heat_periodic_air_column"],
  "proved unless the sides are periodic with different conductivities (matrix not symmetric) or face an air cell (column -1 stored)")
c("C36", "partial", ["Heat.heat_steps_bounded_partial", "Heat.heat_uniform_steady_partial", "Heat.heat_no_negative_exit", "Heat.heat_step_exists",
  "Heat.heat_periodic_uneven_not_symmetric"],
  "proved for any number of solves; false on periodic sides with different conductivities (a uniform temperature changes)")
c("C37", "proved", ["Heat.heat_content_conserved", "Heat.heat_content_gains_sources", "Heat.sides_as_prescribed", "Heat.heat_conservation", "Heat.heat_step_balance", "Heat.bottom_flux_uses_dx"],
  "finding: a prescribed bottom flux is scaled by dx instead of dz")
c("C70", "proved", ["Heat.chemical_bounded", "Heat.chemical_conserved", "Heat.matrixChem_eq"],
  "for any value of the uninitialised lower cut-off; sides not periodic, or periodic with equal diffusivities")
c("C38", "partial", ["Bp.breakpoint_round_trip_partial", "Bp.round_trip_items", "Bp.old_stress_not_restored", "Bp.advection_velocity_rescaled"],
  "proved for every stored quantity except the old stresses sxxd0, szzd0, sxz0, which are read into sxxd, szzd, sxz")
c("C39", "proved", ["Bp.writing_leaves_memory"])
c("C40", "partial", ["Run.crash_keeps_breakpoint_partial", "Run.crash_labels_partial", "Run.at_most_three_files",
  "Run.mislabelled_breakpoint", "Run.restart_mislabelled_skips", "Run.single_file_can_be_lost", "Bp.empty_file_accepted"],
  "the last completed breakpoint survives every crash point; false that labels are right: the rename before the rewrite leaves a complete file of an older step under the new label; delete_breakpoints=-1 can lose everything")
c("C41", "partial", ["Run.steps_executed", "Run.restart_follows", "Run.restart_same_state_partial"],
  "proved for the restored part of the state; the old stresses are not restored (C38)")
c("C71", "proved", ["columns_are_equations", "x_stencil_nodes", "z_stencil_nodes", "c_stencil_nodes", "colNumber_range"],
  "for the Picard isotropic rows; the hypothesis on solved cells is what C58 establishes")
c("C42", "proved", ["Input.readNum_spec", "Input.readNum_history_independent", "Input.readNum_ends",
  "Input.readNum_last_line_needs_newline", "Input.readNum_stale_value"],
  "lines of at most 998 characters, empty or with a blank behind the second character; limits shown: unterminated last line ignored, a key line without equal sign takes leftovers of an earlier line")
c("C43", "proved", ["Input.readMatProps_spec", "Input.readMatProps_freed"],
  "same file format; some line must follow the ID line; limit shown: a parameter line without equal sign leads to use of freed memory")
c("C44", "partial", ["Input.readChar_partial", "Input.readChar_default_partial", "Input.readChar_order_matters",
  "Input.readChar_prefix_matters", "Input.readChar_long_value"],
  "false as stated: the reader continues from the current position and compares only a prefix of the line; import_file above import_files_dir is lost")
c("C45", "proved", ["Config.scale_identities", "Config.momentum_form", "Config.rheology_form", "Config.heat_form", "Config.scales_nonzero"],
  "every field; the four basic scales non-zero")
c("C46", "partial", ["Setup.validatePhase_partial", "Setup.phase_accepted_without_material", "Setup.loaded_phase_unchecked"],
  "false as stated: the phase equal to the number of materials and negative phases are accepted (shown, with the exact set); phases loaded from a marker file are not checked")
c("C47", "proved", ["Setup.posVx_sides", "Setup.posVz_sides", "Setup.posP_sides", "Setup.posP_freeSurface", "Setup.setP_spec",
  "Setup.setVx_iff", "Setup.setVx_spec", "Setup.setVz_iff", "Setup.setVz_spec", "Setup.template_Vx", "Setup.template_Vz", "Setup.template_values"],
  "grids of at least 2x2 nodes; any pattern of air nodes")
c("C48", "proved", ["Setup.pure_shear_flux", "Setup.pure_shear_area"],
  "boxes without air; area changes by the factor 1-(eps*dt)^2 exactly")
c("C49", "partial", ["Setup.correction_balances_partial", "Setup.smooth_ends", "Setup.smooth_range", "Setup.smoothPass_sum",
  "Setup.balanceX_spec", "Setup.balanceX_range", "Setup.balanced_side_has_flux", "Setup.balanceS_spec", "Setup.southern_side_has_flux"],
  "false as stated: the smoothing after the correction changes the sum (witness; exact change per pass proved), and the southern side also corrects its two ghost corners; no new extrema and fixed ends are proved")
c("C50", "partial", ["Setup.isEllipse_iff", "Setup.ellipse_partial", "Setup.ellipse_loses_centre", "Setup.isRectangle_iff",
  "Setup.rectangle_partial", "Setup.rectangle_loses_centre"],
  "false as stated: the ellipse is drawn about its centre turned by twice the angle, the rectangle about its centre turned by the angle (both proved); holds for centre at the origin or no rotation")
c("C62", "proved", ["Config.resolve_consistent", "Config.resolve_accepts", "Config.resolve_keeps_consistent", "Config.capacity_four",
  "Config.capacity_initial", "Config.other_shear_style_not_periodic"],
  "shear styles 0 and 1; any other style selects the periodic templates without periodicity (shown); exact arithmetic, no 32-bit overflow")
c("C72", "proved", ["Setup.setParticles_spec", "Setup.setParticles_stops"],
  "deformation gradient and anisotropy angle not modelled")
c("C73", "partial", ["Setup.defaultName_spec", "Setup.defaultName_overflows"],
  "the name is right if the byte behind the block happens to be zero; five bytes are always written beyond the block")

c("C51", "partial", ["Rheo.softenLinear_partial", "Rheo.softenErf_partial", "Rheo.softenLinear_ends", "Rheo.soften_off", "Rheo.softenLinear_zero",
  "Rheo.softenLinear_overshoots", "Rheo.softenLinear_jump", "Rheo.softenLinear_continuous", "Rheo.softenLinear_discontinuous"],
  "false as stated for a positive onset strain: the linear law does not subtract the onset strain, so it jumps there and overshoots (witnesses); proved for onset strain zero and for the error-function law")
c("C52", "partial", ["Rheo.plastic_partial", "Units.default_tolerance_on_yield", "Rheo.yield_cap", "Rheo.plastic_inactive", "Rheo.plastic_dilation_iff", "Rheo.plastic_exponent_misses",
  "Aniso.plasticAniso_on_yield"],
  "proved without dilation and for linear overstress; with dilation the iteration leaves the yield surface (exact condition proved), and overstress exponents other than one miss it; the anisotropic routine without the Mises cut-off ends on it")
c("C53", "partial", ["Rheo.averages_partial", "Rheo.limiter_spec", "Rheo.phase_sum", "Rheo.weighted_bounds", "Rheo.averages_tiny_fraction", "Rheo.averages_any"],
  "bounds and order of the three averages for fractions that are zero or above 1e-13; smaller fractions are dropped without renormalising (witness); the anisotropic routine applies no viscosity cut-off")
c("C54", "proved", ["Aniso.rotated_is_grid", "Aniso.assembly_is_grid", "Aniso.grid_is_transverse", "Aniso.isotropic", "Aniso.rotate_invariants",
  "Aniso.rotateBack_rotate", "Aniso.layered_invariant", "Aniso.symmetric", "Aniso.dissipative", "Aniso.director_disk", "Aniso.disk_convex",
  "Aniso.average_has_no_frame", "Aniso.factor_range", "Aniso.layerOf_eq", "Aniso.local_is_grid", "Aniso.local_is_mirrored", "Aniso.local_differs"],
  "symmetric and dissipative also for directors averaged over markers, which belong to no rotated frame; the layer-frame values computed from acos are mirrored for half of the orientations (shown), only their invariants are used")
c("C55", "proved", ["Rheo.effective_inverts", "Rheo.effective_isotropic"])
c("C56", "proved", ["Melt.melt_range", "Melt.melt_none", "Melt.melt_mono", "Melt.melt_equilibrium", "Melt.meltCell_range", "Melt.melt_unknown"],
  "for the five models the code knows; the solidus is the one kept 100 K below the liquidus; an unknown positive model number melts everything (shown)")
c("C57", "partial", ["Melt.lookup1_partial", "Melt.lookup2_partial", "Melt.lower_range", "Melt.lookup1_node", "Melt.lookup1_lower_limit", "Melt.lookup2_lower_limit"],
  "false exactly at the lower limit of the table, where the entry before the table is read (shown)")
c("C74", "proved", ["Aniso.director_unit", "Aniso.director_unit_history", "Aniso.initDirector_eq", "Aniso.director_is_normal", "Aniso.director_sign", "Aniso.director_rigid"])
c("C75", "partial", ["LocalIter.run_partition", "LocalIter.run_bounds", "LocalIter.run_succeeds", "LocalIter.slope_is_derivative", "LocalIter.rates_flow", "LocalIter.gbs_is_lost", "LocalIter.gbs_alone_divides_by_zero"],
  "false for grain boundary sliding, whose coefficient is never assigned (shown); proved for the other mechanisms")
c("C76", "partial", ["Melt.heatCapacity_partial", "Melt.heatCapacity_first_cell_air"],
  "false as stated: the flag of the first cell of the grid is tested in place of the cell's own; if it is air every rock cell gets zero")
c("C60", "proved", ["GridField.centroidsToVertices_spec", "GridField.centroidsToVertices_bounds", "GridField.centroidsToVertices_frame",
  "GridField.cellsAt_mem", "GridField.centroidsToVertices_surface_reduced", "GridField.verticesToCentroids_spec"],
  "the full value at every vertex is given; at vertices that touch air the sum over rock cells is still divided by four, so constants are not kept there (shown)")
c("C61", "proved", ["GridField.lith_difference", "GridField.lith_monotone", "GridField.lith_weight", "GridField.lith_air", "GridField.lith_top_cell_missing"],
  "differences as stated; with air on top the pressure is the exact weight above; without air the weight of the top cell is missing in the whole column (shown)")
c("C65", "partial", ["GridField.upwind_partial", "GridField.upwind_eq", "GridField.upwind_half_step"],
  "no new extrema is proved; false that the field advances by the time step: both passes start from the old field, so only half of it is covered (shown); the routine has no caller")
c("C77", "partial", ["Hist.strain_never_decreases_partial", "Hist.strain_history_partial", "Hist.strain_uniform", "Hist.strain_can_decrease"],
  "proved between the outermost cell centres; false in the half cells along the sides, where the weights extrapolate and turn negative (witness); homogeneous flow exact everywhere")
c("C78", "proved", ["Hist.deform_is_product", "Hist.deformation_history", "Hist.deformation_gradient_affine", "Hist.deformation_gradient_translation"])
c("C79", "proved", ["Hist.aspect_ratio_of_strain_ellipse", "Hist.aspect_ratio_facts", "Hist.stretches_unique"])
c("C80", "proved", ["Hist.peak_is_maximum"])
c("C81", "proved", ["Hist.fraction_in_range", "Hist.fraction_is_sum", "Hist.fraction_unchanged"])
c("C82", "partial", ["Hist.stress_never_rotated", "Hist.rotation_needed", "Hist.vorticity_of_rotation", "Hist.rotation_formulas", "Hist.rotation_invariants"],
  "false: the vorticity is never fetched (the call interpolates a zero marker array onto the vorticity grid), so no stress is ever rotated; what the formulas would do is proved, including that mode 2 turns against the material")
c("C83", "proved", ["Hist.plain_update_bounded", "Hist.plain_update_uniform", "Hist.uniform_change_reaches_markers", "Hist.subgrid_update_consistent",
  "Hist.subgrid_uniform_offset_kept", "Hist.subgrid_moves_towards_grid", "Hist.damp_range", "Hist.switches"],
  "uniform-offset part for equal relaxation rates and every cell fed by markers")
c("C84", "partial", ["Hist.relaxation_independent_of_units", "Hist.pressure_relaxation_depends_on_units"],
  "proved for temperature and stress; false for pressure, whose relaxation time is viscosity divided (not multiplied) by compressibility")
c("C85", "partial", ["Hist.stress_change_reaches_markers", "Hist.switches"],
  "proved for the values 0, 1, 2; for any other value the stress change is silently dropped (second half of the theorem)")
c("C86", "proved", ["Kin.linear_flow_exact", "Kin.rigid_motion_unnoticed", "Kin.normal_rates_trace", "Kin.air_rates_zero"])
c("C87", "partial", ["Kin.cell_shear_exact_partial", "Kin.vertex_normal_rates_partial", "Kin.surface_cell_shear_reduced"],
  "proved away from air; a cell with an air corner loses a quarter of the shear rate per corner (third theorem), a vertex a quarter of the normal rates per air cell")
c("C88", "proved", ["Ksp.returned_vector", "Ksp.loop_fuel"])
c("C89", "partial", ["Ksp.first_cycle_optimal_partial", "Ksp.exact_preconditioner"],
  "optimality is proved up to the first restart (6 directions); after it the loop i2<i1+1 also subtracts a direction left over from the previous cycle with a stale coefficient, so the code gives no such guarantee")
c("C90", "partial", ["Ksp.solution_is_ruined", "Ksp.perpendicular_step_ruins", "Ksp.exact_preconditioner"],
  "false: starting at the solution divides zero by zero, a step with no progress breaks down in the next one (both proved); proved for an exact preconditioner and a start that is not the solution")
c("C91", "partial", ["PH.killer_blocks", "PH.killer_blocks_fit", "PH.comp_blocks_misread"],
  "proved for the default solver; false for the direct compressible and the Krylov solver as soon as there are air cells: the inverse is read at the cell number instead of the equation number")
c("C92", "proved", ["PH.momentum_is_krylov_residual", "PH.iteration_momentum", "PH.compressible_cells_exact", "PH.incompressible_cells_penalty", "PH.fixed_points_are_solutions"],
  "for Picard iterations (same divergence block in the matrix and in the update)")
c("C93", "partial", ["PH.accepted_partial", "PH.negative_divergence_accepted", "PH.momentum_not_checked"],
  "the upper bound on the continuity residual is proved; false from below (only the signed maximum is tested) and for momentum (not tested after the loop)")
c("C94", "proved", ["PH.direct_momentum_exact", "PH.direct_divergence_decreases", "PH.direct_converges"],
  "exact arithmetic, factorisation as an exact solve of the lower-triangle-symmetrised matrix; the stopping test is not part of the statement; an input file cannot select this solver any more (C144)")
c("C95", "partial", ["Dens.linear_reference", "Dens.exponential_reference", "Dens.hotter_not_denser", "Dens.deeper_not_lighter", "Dens.density_positive_partial", "Dens.exponential_compressibility", "Dens.linear_compressibility", "Dens.linear_negative", "Dens.unknown_density_model"],
  "analytic laws (models 0, 1, 3, 5); false for the linear law: it becomes negative at high temperature and its compressibility is the parameter at the reference pressure only; an unknown model number returns an uninitialised variable; the tabulated models are look-ups (see C85)")
c("C96", "proved", ["Dens.cell_density_between", "Dens.air_cell_weightless"],
  "fractions that are neither zero nor above 1e-13 are dropped by the code and excluded here")
c("C97", "partial", ["Dens.modulus_between", "Dens.expansivity_between", "Dens.air_moduli", "Dens.periodic_moduli", "Dens.empty_node_no_modulus", "Dens.cohesion_noise"],
  "a node below the surface without any phase has an infinite modulus (proved); the code stops for a cell but only prints a message for a vertex")
c("C98", "proved", ["Dens.progress_implicit", "Dens.progress_between", "Dens.progress_history"],
  "erfc is a parameter with values in [0,2]")
c("C99", "partial", ["Dens.mixture_end_members", "Dens.mixture_between", "Dens.mixture_geometric", "Dens.mixture_prefactor_partial", "Dens.mixture_forgets_pressure", "Dens.mixture_correction_partial", "Dens.mixture_correction_not_cancelled"],
  "exponent, activation energy and pre-exponential factor are as stated; false for the viscosity: the mixture drops activation volume, grain size, fugacity and melt dependence, and ignores a cancelled correction")
c("C100", "proved", ["Flow.axial_experiment", "Flow.shear_experiment", "Flow.uncorrected", "Flow.viscosity_unit_free", "Flow.peierls_axial_experiment", "Flow.peierls_unit_free"],
  "the constants of the tables are parameters; the Peierls law in its regularised form")
c("C101", "partial", ["Flow.linear_reads_diffusion_partial", "Flow.linear_one_clobbers", "Flow.reference_viscosity_met", "Flow.reference_stress_value", "Flow.reference_stress_not_met", "Flow.peierls_correction_not_cancelled"],
  "false for diffusion law 1 (overwrites the dislocation law, unscaled), for the user-defined law with reference stress, and for cancelling the correction of a Peierls law")
c("C102", "proved", ["Resid.defect_is_scaled_residual"], "sums in exact arithmetic")
c("C103", "partial", ["Resid.reported_bounds_partial", "Resid.small_residuals_reported", "Resid.uncounted_ignored", "Resid.wall_equation_unreported", "Resid.small_grid_stops"],
  "false for the momentum equations: the two outermost solved rows (Vx) and columns (Vz) at each side are left out of the norms, and a grid of at most four vertices in one direction always stops with NaN")
c("C104", "partial", ["Resid.vertical_balance", "Resid.horizontal_balance", "Resid.horizontal_balance_periodic", "Resid.rest_continuity", "Resid.body_force_reaches_equation", "Resid.lith_layered", "Resid.surface_balance", "Resid.surface_balance_iff", "Resid.stress_base_unbalanced", "Resid.horizontal_force_exact", "Resid.incision_within_channel", "Resid.continuity_iff"],
  "interior equations are exact; at the free surface balance needs weightless air and no background pressure (proved equivalence), and a base with prescribed normal stress lacks half a cell of weight")
c("C105", "partial", ["Resid.polar_upper_partial", "Resid.polar_lower_reversed", "Resid.polar_axis_unchanged"],
  "true above the horizontal axis; below it gravity points away from the centre, on it gravity stays vertical")
c("C106", "partial", ["Sparse.scaled_diagonal_is_cubed", "Sparse.scaling_equalises_partial", "Sparse.diagonal_not_equalised"],
  "false for the code: the factors are the diagonal itself instead of one over its square root, so the diagonal is cubed and contrasts grow")
c("C107", "partial", ["Output.phase_map_nearest", "Output.output_maps_partial", "Output.compo_is_not_phase"],
  "true for the two refined maps; the map of standard resolution called compo shows the dual phase instead of the phase")
c("C108", "proved", ["Dataset.main_file", "Dataset.marker_file", "Dataset.chunk_valid"], "needs the surface chain to fit its allocation (50 markers per column) and the markers theirs; HDF5 calls are the list of datasets they are asked to write")
c("C109", "proved", ["Dataset.main_file", "Dataset.marker_file", "Dataset.unit_val", "Dataset.params_si"], "rounding to float is not modelled")
c("C110", "partial", ["Output.series_means", "Output.series_schedule_independent", "Output.mean_bounds", "Output.mean_invariant_bound", "Output.series_invariant_omits_yy", "Output.series_history"],
  "the invariant of the strain rate leaves out the out-of-plane component; corner values at the surface include air; with no rock cell the means are 0/0")
c("C111", "partial", ["Output.map_axes", "Output.selectMech_spec", "Output.map_index_injective", "Output.deformation_map_partial", "Output.tie_keeps_last_mechanism", "Output.map_strain_rate_is_not_the_axis"],
  "the law is evaluated at root three times the strain rate of the axis; where mechanisms tie the map shows the previous point's mechanism (uninitialised at the first point); the law itself is a parameter")
c("C112", "partial", ["Bp.continue_with_other_length", "Bp.longer_run_series", "Bp.same_length_series"],
  "true for everything but the time series, which are read with the new length and come out shifted into each other; the sum of the elastic energy is not stored at all")
c("C113", "partial", ["Dataset.output_leaves_run_partial", "Dataset.residual_dump_restores", "Dataset.output_changes_run"],
  "false with composition diffusion switched on: the writer overwrites the composition used by the next density update; the fields compared are those the writers touch")
c("C114", "proved", ["Units.model_parameters", "Units.material_parameters", "Units.nothing_else", "Units.scales_do_not_matter", "Units.etaVp_unit", "Units.end_values", "Units.constants_si", "Units.spacing_fills", "Units.tolerances_follow_scales", "Units.default_plastic_tolerance"],
  "tolerances are numbers of characteristic units, so the physical tolerance follows the scales; the default of eta_tol is 1e11")
c("C115", "partial", ["Units.accepted_iff", "Units.too_many_phases"],
  "accepted exactly when sensible, for at most 20 phases; with more the arrays of mat_prop are overrun; negative product phases, diagram numbers of 10 and more and the order of the softening strains are not checked by the program and not part of the predicate")
c("C116", "partial", ["Heap.memory_of_run_partial", "Heap.memory_between_steps", "Heap.mechanics_needed", "Heap.anisotropy_needed", "Heap.angle_needed", "Heap.kinetics_needed", "Heap.jacobian_needed", "Heap.switch_once_needed", "Heap.solver_needed", "Heap.factor_left"],
  "true for sound switches and orderly steps, except the block of the lateral stress; each condition is shown to be needed: without mechanics, with an unknown solver, with anisotropy other than 0 or 1, with initial directions but no anisotropy, with kinetics of a phase but not of the model, or when Newton steps are asked for without a Jacobian or after a step without them, the run uses or releases a pointer that was never set; a step that stagnates in its first pass leaves the Cholesky factor; blocks that live inside one routine and file handles are not modelled")
c("C117", "proved", ["Tan.grid_stress_law", "Tan.cell_tangent", "Tan.vertex_tangent", "Tan.picard_frozen", "Tan.picard_exact", "Tan.slope_of_effective", "Tan.air_transmits_nothing"],
  "the angle of the foliation and the elastic part are held fixed, as they are during a step")
c("C118", "proved", ["Tan.viscosity_differences_converge", "Tan.divergence_density_converge", "Tan.differences_left_out", "Tan.quadratic_exact", "Tan.newton_vertex_converges", "Tan.newton_cell_converges"],
  "a limit statement: with the finite step of the code the derivatives are exact only for quadratic laws with centred differences (quadratic_exact), and the anisotropy factor, the dilation at vertices and the dependence of the density on strain rates are not differentiated (differences_left_out)")
c("C119", "partial", ["JacRow.x_row_is_derivative_partial", "JacRow.z_row_is_derivative_partial", "JacRow.x_derivative", "JacRow.z_derivative", "JacRow.stored_cell_operators", "JacRow.stored_vertex_operators", "JacRow.incompressible_row_not_derivative", "JacRow.stress_side_row_empty", "JacRow.stress_bottom_row_empty", "JacRow.stress_side_row_not_derivative", "JacRow.surface_row_not_derivative", "JacRow.x_weights", "JacRow.z_weights", "JacRow.x_corr", "JacRow.z_corr", "JacRow.x_periodic", "JacRow.z_periodic"],
  "true for nodes surrounded by rock, in compressible models or for changes that keep the volume, with equal stabilisation terms; false for incompressible models (the matrix always subtracts the volume change), on stress sides (rows are empty) and next to air cells (averaging weights differ); rows next to no-slip and free-slip walls are modelled but not covered by the theorem")
c("C120", "proved", ["Point.invariant_turn", "Point.update_turned"], "phases of constant grain size, isotropic")
c("C121", "partial", ["Point.heat_partial", "Point.update_total_partial", "Point.update_goes_on", "Point.stress_below_strength", "Point.creep_physical", "Point.rock_yields", "Point.rock_creeps", "Point.tension_stops", "Point.heat_wrong_grain", "Point.sliding_gives_no_heat"],
  "true without grain boundary sliding, with diffusion creep at the reference grain size, with plasticity linear in the rate, without dilation and with a strength that is not negative; otherwise false: diffusion creep heats at the wrong grain size, sliding gives no heat at all, and in tension the program stops with a negative heat source; the local iterations converge within their number of passes for exponents up to 1000")
c("C122", "proved", ["Point.mean_between", "Point.cell_update", "Point.vertex_update", "Point.node_stress_below_strength", "Point.air_zero", "Point.stops_iff_empty", "Point.grid_spec", "Point.update_limits"],
  "fractions below 1e-13 are skipped by the program, so compositions are taken to have none; the strength holds where plasticity is linear in the rate and does not dilate")
c("C123", "partial", ["Point.cell_heat_single_partial", "Point.cell_heat_mixed", "Point.harmonic_mixture_overheats"],
  "true for one phase and for the arithmetic mean; with the harmonic mean the heat is more than the work (8 instead of 6 in the example), because heat is always averaged arithmetically; mixed cells with elasticity are not covered")
c("C124", "proved", ["Point.kinetic_between", "Point.kinetic_time"], "the equilibrium densities and the affinity are parameters")
c("C125", "partial", ["SFlow.column_weights", "SFlow.column_mass", "SFlow.weight_range", "SFlow.static_pressure_partial", "SFlow.cut_off_hilltop_overweight", "SFlow.vertex_overweight", "SFlow.top_row_reads_behind"],
  "continuous in the surface height, but half a row of rock is missing from every column and from the pressure at depth; the top cell has half its pressure; cells below a cut-off hill top and vertices get more than their full density; with rock in the top row tags behind the array are read")
c("C126", "partial", ["SFlow.surfaceNodes_spec", "SFlow.chainVel_between", "SFlow.chainVel_affine", "SFlow.surface_velocity_partial", "SFlow.uplift_lags", "SFlow.flat_uplift_misjudged", "SFlow.stale_velocity"],
  "exact when the velocity does not change with depth; otherwise the vertical velocity is that of half to one and a half rows below the surface; a column without air keeps its old value")
c("C127", "partial", ["SFlow.start_velocity", "SFlow.start_divergence", "SFlow.start_pressure", "SFlow.start_air_pressure", "SFlow.expansion_needs_strain"],
  "velocities hold; air starts at the background pressure because the test for air is always true; without background strain rate the expansion is left out")
c("C128", "proved", ["SFlow.chain_placed"], "")
c("C129", "partial", ["CStep.marker_density_partial", "CStep.resting_interior_balanced", "CStep.marker_density_cut", "CStep.resting_surface_never_balanced", "CStep.carried_bounded"],
  "true away from the surface; in a cell cut by the surface a rock at rest reports an increase in the first step and a decrease in all later ones, because the density at the end of the step is evaluated without the surface correction that the old one had; the closed form is for markers at cell centres")
c("C130", "partial", ["CStep.expansion_is_density_drop_partial", "CStep.warming_expands", "CStep.expansion_where", "CStep.expansion_decided_elsewhere", "CStep.constant_density_expands"],
  "true for mixtures of materials with the linear law at reference pressure when the first cell is rock; whether any cell expands is decided by the flag of the first cell, and materials of constant density expand as well")
c("C131", "partial", ["CStep.compressible_history", "CStep.compressible_now_partial", "CStep.stale_compressible_flag"],
  "flags are never cleared: a cell counts as compressible once it has been; with incompressible material in it the solver divides by zero")
c("C132", "proved", ["CStep.cooling_covers", "CStep.cooling_steps_rounded", "CStep.perturbation_in_ellipse"],
  "rounding to nearest with any tie rule, without overflow and underflow; a duration of zero gives an undefined number of steps")
c("C133", "proved", ["CStep.heat_solver_solves", "CStep.polar_factor_posdef", "CStep.cartesian_ignores_upper"],
  "Cartesian matrices are symmetric under the conditions of heat_matrix_symmetric_partial (C35); the assembly of the polar rows is not modelled")
c("C134", "partial", ["CStep.grain_start", "CStep.grain_between_partial", "CStep.grain_forgotten"],
  "the marker value is overwritten by the interpolated grid value in every step, so markers of different materials at one place get the same grain size even if nothing changes it")
c("C135", "partial", ["Point.aniso_turned", "Point.aniso_law_partial", "Point.aniso_goes_on", "Point.aniso_heat", "Point.aniso_rock_yields", "Point.aniso_constant", "Point.aniso_rest_stops", "Point.aniso_elastic_rate_squared", "Point.aniso_heat_excess", "Point.aniso_heat_overstated", "Point.aniso_limits_ignored", "Point.aniso_zero_beta"],
  "turning and the law hold, the latter when the local iteration met its tolerance and for materials with positive compressibility; false: the heat source is too large by up to the anisotropy factor for shear along the layers, the reported elastic rate is squared, the limits on viscosity are not applied, rock at rest without stress ends the program, and yielding with zero compressibility gives NaN")
c("C136", "partial", ["Point.aniso_cell", "Point.aniso_vertex", "Point.aniso_cell_rest_stops", "Point.aniso_density_zero"],
  "viscosity, rates and heat are means; with density_variations = 1 the density of every cell of an anisotropic model is zero, and its logarithm enters the residual")
c("C137", "partial", ["Point.factor_mean", "Point.factor_goes_on", "Point.factor_periodic", "Point.factor_isotropic_stops"],
  "true except that with the geometric mean the program ends if all factors are one (its check of a positive value tests the logarithm)")
c("C138", "partial", ["Point.field_follows", "Point.cellBeta_mean", "Point.cellAlpha_between", "Point.field_frozen", "Point.restart_changes_field"],
  "true with elasticity on; without it the fields keep their initial values for ever, and are zero after a restart")
c("C139", "partial", ["Point.grain_update_partial", "Point.grain_run", "Point.grain_iterations", "Point.grainAt_wattmeter", "Point.grain_decreases", "Point.grain_slope_is_derivative", "Point.grain_unique"],
  "any result has strain rates and grain size in balance and the solution is unique; that 20 passes suffice is not proved (the first two passes leave out the change of grain size), and where the rock yields the balance holds at the trial stress, not at the stress returned")
c("C140", "partial", ["Flow.power_usable", "Flow.linear_usable_partial", "Flow.linear_one_unusable", "Flow.sliding_usable", "Flow.peierls_usable", "Flow.grain_usable_partial", "Flow.piezometer_nan", "Flow.viscosity_pos", "Flow.viscosity_trends", "Flow.tables_sound", "Flow.tables_go_on"],
  "true for all built-in creep laws except diffusion law 1, which fills in the dislocation creep instead, and for the grain size laws except the two piezometers (11 and 12), which give no number")
c("C141", "partial", ["Tab.diagrams_good", "Tab.diagram_node", "Tab.diagram_between", "Tab.diagram_units", "Tab.model2_density", "Tab.smooth_ends", "Tab.smooth_between", "Tab.smooth_monotone", "Tab.smooth_linear", "Tab.smooth_jump", "Tab.coesite_between", "Tab.coesite_monotone_partial", "Tab.model4_density", "Tab.coesite_outside", "Tab.coesite_falls", "Tab.checkModels_spec", "Tab.short_file_undetermined", "Tab.coesite_short", "Tab.index_unchecked"],
  "entries, range, units and smoothing proved off the exact lower limits (C57); false outside the limits, where the look-up jumps a hundredth of a step inwards so that density can fall with pressure (shown); a short file is not noticed and leaves what was in memory, or density zero in the quartz-coesite table (shown); an index beyond the ten diagrams passes the check (shown)")
c("C142", "partial", ["Coupled.returned_no_worse_partial", "Coupled.iterate_spec", "Coupled.preconditioner_solves", "Coupled.compressible_one_iteration", "Coupled.balanced_state_changed", "Coupled.first_step_breakdown", "Coupled.solvable_breakdown"],
  "relative to the start vector the reduction is proved, and the single iteration of compressible systems; false relative to the zero correction, because the start vector is the present flow: for every tolerance a balanced state is changed (shown); false for solvable systems whose first direction brings no progress: the next one is divided by zero (shown); running out of the thousand iterations is not reported. Exact arithmetic and factorisation; the pressure blocks are those meant, see C91")
c("C143", "partial", ["Coupled.comp_momentum_exact", "Coupled.comp_continuity", "Coupled.comp_divergence_decreases", "Coupled.comp_converges", "Coupled.comp_accepts", "Coupled.comp_result", "Coupled.comp_returned"],
  "all proved for exact arithmetic, factorisation and the pressure blocks meant (C91); the last sentence is false after twenty iterations: the decision is then taken on the flow one iteration earlier, and it looks at the signed maximum only (as in C93)")
c("C144", "partial", ["Coupled.start_vx_partial", "Coupled.start_vz", "Coupled.start_vz_not_present", "Coupled.start_vz_outside", "Coupled.chosen_after_reading", "Coupled.unknown_number_no_change"],
  "proved for horizontal velocities and for the replacement of unsuited solvers; false for vertical velocities: they are read from the array of horizontal velocities, beyond its end in grids with at least 2 Nx + 3 rows (shown); false for unknown numbers: no solver is called and the flow never changes (shown)")
c("C145", "partial", ["viscous_work_nonneg_partial", "viscous_work_pos", "velocity_determined", "assembled_block", "assembled_definite", "assembled_direct_converges", "stabilisation_negative_work","viscous_work_pos_compressible"],
  "isotropic Picard rows, no periodic sides and no stress boundaries; work never negative without stabilisation, or when density nowhere increases against gravity; false with stabilisation under an unstable layering (shown: the stabilised block does negative work). Zero only at rest: without air (for compressible flow with out-of-plane strain this needs viscous vertices, viscous_work_pos_compressible)")
c("C146", "partial", ["gentle_flow_unique_partial", "gentle_definite", "gentle_terrain", "terrain_work_pos", "loose_cell_slides", "spike_flow_not_unique","rest_same_volume","conformal_flow_meets_no_force"],
  "proved for topography that steps by at most one cell between neighbouring columns, with the rows of C145 (isotropic Picard, no periodic sides); for compressible flow with out-of-plane strain the velocity equations alone leave a flow free that stretches every cell equally (conformal_flow_meets_no_force), the volume equations then exclude it (rest_same_volume, C152); false for steep topography: the lateral correction can cut the top cell off a peak, and this loose cell slides without force (shown)")
c("C147", "partial", ["StepFlow.predicted_is_found_partial", "StepFlow.update_history_free", "StepFlow.search_measures_next_pass_partial", "StepFlow.accepted_step_improves_next_pass_partial", "StepFlow.stabilised_row_gap", "StepFlow.scaled_row_gap", "StepFlow.volume_row_gap"],
  "isotropic, Picard rows; proved without free-surface stabilisation, diagonal scaling and density_variations; with one of these the prediction uses the viscosities of the iteration before, or another pressure for the density, and differs (exact conditions for agreement given for each)")
c("C148", "partial", ["StepFlow.recorded_stress_of_recorded_flow", "StepFlow.recorded_residual_is_accepted_partial", "StepFlow.recorded_force_balance", "StepFlow.recorded_force_balance_z", "StepFlow.recorded_volume_balance_partial", "StepFlow.reset_volume_gap", "StepFlow.reset_keeps_divergence", "StepFlow.viscoelastic_goes_on", "StepFlow.vertex_viscosity_of_flow", "StepFlow.density_of_pressure", "StepFlow.recorded_density_of_recorded_pressure"],
  "isotropic; accepted residual: without density_variations, where the final update takes the density at another pressure; momentum balances written out at inner nodes; volume parts add up except in cells whose stress was reset in tension: these record a plastic divergence the balance does not contain (shown)")
c("C149", "proved", ["Point.mixture_is_mean"],
  "material that only creeps at constant viscosity; without elasticity, both viscosities within the limits of the user")
c("C150", "partial", ["StepFlow.power_balance", "StepFlow.cell_budget", "StepFlow.heat_near_work", "StepFlow.heat_at_most_work", "StepFlow.heat_falls_short"],
  "closed box with sticking or shear-free walls, without free-surface stabilisation, incompressible; the power balance of the recorded stresses holds for every material; the heating takes the shear work from rates averaged to cells, so it differs from the power by exactly the difference of the shear work at vertices and in cells (cell_budget); with one viscosity it never exceeds the power (heat_at_most_work), and a third of it can be missing (heat_falls_short); for varying viscosity only the exact difference is given")
c("C151", "partial", ["StepFlow.matrix_is_derivative_partial", "StepFlow.residual_linear_in_step_partial", "StepFlow.one_solve_is_enough_partial", "StepFlow.line_search_takes_full_step_partial", "StepFlow.extracted_is_shift", "StepFlow.change_homogeneous", "StepFlow.scaled_by_diagonal", "StepFlow.box_linear", "StepFlow.plate_linear"],
  "Proved for viscous, viscoelastic, compressible and incompressible materials, with free surface, free surface stabilisation and diagonal scaling, for Picard and Newton settings of the line search (the matrix is the Picard one). Missing: periodic sides, prescribed stresses at sides, density_variations (not linear), mixed phases (mixing of reactions). On grids with less than five vertices in a direction the norms do not exist and the run stops (C103), so the statement on the line search has a hypothesis that excludes them.")
c("C152","partial",["StepFlow.step_has_one_flow_partial","StepFlow.one_flow_partial","StepFlow.one_pressure_partial","StepFlow.solution_exists_partial","StepFlow.start_does_not_matter_partial","stokes_no_source","pressure_no_source","stokes_solvable","open_top_grounded","gentle_solvable","work_in"],
"The energy argument of C145/C146 is carried to the assembled system with pressures: a field without sources does no viscous work, so it has no velocity, no pressure in compressible cells and equal pressures across solved faces; hence pressures vanish in every cell tied to a compressible cell or to air (open_top_grounded: every cell, below a free surface). stokes_solvable turns this into exactly one solution for every right-hand side. step_has_one_flow_partial lifts it to a whole pass of the nonlinear loop through the numbering, the solution vector and ExtractSolutions. Missing: materials whose viscosity depends on the flow (the balance is then not linear), periodic sides, steep peaks (C146 shows a singular system) and closed incompressible boxes, where pressure is fixed up to a constant only (C153).")
c("C153","partial",["StepFlow.closed_step_iff_partial","StepFlow.closed_pressure_partial","StepFlow.volume_residuals","StepFlow.outflow_prescribed","closed_solvable_iff","volume_stays","sealed_grounded","StepFlow.warming_flow"],
"closed_solvable_iff states it for the assembled system and any right-hand side: solvable exactly if the volume rows add up to zero (with one cell made compressible the system is solvable by C152, and its pressure then comes out zero). closed_step_iff_partial carries it to a pass of the nonlinear loop; warming_flow shows both answers on one model: a closed plate that expands thermally has no flow, whatever the solver does. Missing: materials whose viscosity depends on the flow, periodic sides.")
c("C154","partial",["StepFlow.pure_shear_exact_partial","StepFlow.pure_shear_stress_partial","StepFlow.pure_shear_has_flow_partial","StepFlow.slab_meets"],
"pure_shear_exact_partial is an equivalence: the flows that balance all equations are u = -eps x, v = eps z with the pressure of the weight plus a constant, and no others; the wall tags and values are those the model of SetBCs leaves with the pure shear functions. slab_meets shows the hypotheses to hold on every grid. pure_shear_has_flow_partial: with several viscosities and elasticity there is a flow, too. Missing from the exact flow: elasticity, free-surface stabilisation, compressible materials. The simple shear functions (periodic sides) are in C161.")
c("C155","proved",["StepFlow.patch_test","StepFlow.pure_shear_any_rheology","StepFlow.stressed_slab_meets","StepFlow.row_x_forces","StepFlow.row_z_forces","StepFlow.even_stress_balanced"],
"patch_test needs no hypothesis on the flow laws, only that the update goes through (no local iteration ends the program). row_x_forces and row_z_forces write the residual rows as force balances of the stresses the update left, at any state. stressed_slab_meets shows the hypotheses to hold on every grid for an elastic slab with shear and normal stress left from before. even_stress_balanced is the version with gravity, for laws whose stress does not depend on the pressure. Outside: air, the free surface stabilisation, anisotropy.")
c("C156","proved",["StepFlow.maxwell_step","StepFlow.maxwell_step_exists","StepFlow.maxwell_history","StepFlow.maxwell_loading","StepFlow.maxwell_converges","StepFlow.maxwell_exact","StepFlow.slab_maxwell","StepFlow.slab_history","StepFlow.pure_shear_only"],
"MaxwellStep is the path of the stress through one step: P2Mastah to cells and vertices, copies between them, the update of C148, a balanced flow (the only one, by pure_shear_only), the recorded stresses, the change back to the markers. maxwell_step is one step, maxwell_history the induction, maxwell_loading the closed form, maxwell_converges and maxwell_exact its limit. maxwell_step_exists shows that such a step can always be made, slab_history that the whole history exists on every grid. With gravity in any direction. Assumed: one density, no air, incompressible, every node fed by a marker, viscosity and G dt within a factor 1e13 of each other (tolerance of the local iteration), effective viscosity within the limits. The stress rotation does nothing (C82); in pure shear there is nothing to rotate.")
c("C157","proved",["StepFlow.heat_step","StepFlow.heat_history","StepFlow.pure_shear_heating","StepFlow.shear_heating_step","StepFlow.shear_heating_history","StepFlow.slab_shear_heating","StepFlow.slab_heating_history","StepFlow.no_shear_heating"],
"heat_history is the induction for any even heating, shear_heating_history the benchmark: momentum solved and recorded (the only flow, C154), its dissipation handed to the thermal system, one solve, temperatures back to the markers. slab_shear_heating shows that such a step can be made on every grid, slab_heating_history that the whole history exists. Assumed: all rock, one heat capacity, every cell fed by a marker, no adiabatic heating, strain rate not below the floor of the code (1e-30 per second).")
c("C158","proved",["StepFlow.hot_maxwell_step","StepFlow.hot_maxwell_history","StepFlow.hot_maxwell_energy","StepFlow.maxwell_energy_step","StepFlow.maxwell_heat_of_stress","StepFlow.hot_maxwell_step_exists","StepFlow.slab_hot_history"],
"HotMaxwellStep joins the steps of C156 and C157: the stress the update records is the one that heats. hot_maxwell_energy is the budget, maxwell_energy_step its algebra for one implicit Euler step. hot_maxwell_step_exists and slab_hot_history show that such steps exist on every grid, for ever. Assumed beyond C156 and C157: the stress is not so small that its strain rate is below the floor of the code (1e-30 per second), where the code would heat by the floor instead.")
c("C159","partial",["StepFlow.plastic_loading_partial","StepFlow.plastic_step_partial","StepFlow.plastic_step_exists","StepFlow.plastic_flow_balanced","Point.vonMises_out","StepFlow.slab_plastic","StepFlow.slab_plastic_history","StepFlow.yielding_run"],
"Spec/VonMises states the yield rule without the code. The step records the stresses of the uniform flow; plastic_flow_balanced proves that this flow meets the walls and is balanced while the body yields. In a box that keeps its size, yielding_run (C160) proves the curve for the program's own start fields and loop, with any solver. Missing: a box that moves with the flow (pure_shear_ALE), where a solve is needed and it is not proved that it returns this flow and not another balanced one (plastic flow can localise, so no uniqueness is proved, unlike C156). Assumed: no friction and no dilation, linear overstress viscosity, rate not below the floor of the code, strength not below what the lower viscosity limit carries.")
c("C160","proved",["StepFlow.balanced_accepted","StepFlow.settled_step","StepFlow.pure_shear_start","StepFlow.pure_shear_run_start","StepFlow.pure_shear_kept","StepFlow.pure_shear_step","StepFlow.pure_shear_run","StepFlow.yielding_step","StepFlow.yielding_run","StepFlow.passes_loop","StepFlow.slab_own_run","StepFlow.stressed_own_run"],
"mechStep (Model/StepLoop) joins InitialiseSolutionFields, the nonlinear loop with its fields, and the final update; the solver is a parameter. passes_loop: its decisions are those of the loop of C17. pure_shear_run is the induction for every flow law without weight, yielding_run the one with weight through the markers. slab_own_run and stressed_own_run show that such runs exist on every grid of at least five by five vertices (smaller grids count no rows and stop, C103). Isotropic, without Jacobian; zero background divergence; the periodic sides are in C161.")
c("C161","proved",["StepFlow.simple_shear_start","StepFlow.simple_shear_run_start","StepFlow.simple_shear_kept","StepFlow.row_seam_forces","StepFlow.simple_shear_settled","StepFlow.simple_shear_step","StepFlow.simple_shear_run","StepFlow.seam_own_run"],
"The walls are those the model of SetBCs leaves with the simple shear functions; the box must be centred at z = 0, because the start flow is 2 eps z while the wall values are plus and minus eps times the height. seam_own_run shows such runs to exist on every grid of at least five by five vertices. Isotropic, without Jacobian, no weight. That the flow is the only balanced one is not claimed here (with periodic sides the solution set was not characterised).")
c("C162","proved",["StepFlow.safe_step_accurate","StepFlow.recorded_step","StepFlow.loop_record","StepFlow.cycle_kept","StepFlow.step_ends","StepFlow.unsafe_step_untested","StepFlow.slab_records_anything"],
"The solver is an arbitrary function of the number of evaluations, the fields and the mesh. safe_step_accurate is the guarantee; Accurate says with which setting the residuals are measured (the reduced time step). unsafe_step_untested and slab_records_anything (on every grid of at least five by five vertices, with relative tolerances alone and one iteration) are the counterpart without safe mode. Isotropic, without Jacobian; the residuals are real numbers, so the exit on NaN is the missing norm of C103.")
c("C163","proved",["StepFlow.creep_pure_shear_run","StepFlow.creep_simple_shear_run","StepFlow.creep_pure_shear_step","StepFlow.creep_simple_shear_step","StepFlow.creep_updates","StepFlow.experiment_viscosity","Point.power_update","StepFlow.creepSlab_steps"],
"Experiment states the published law (Spec.labRate) in terms of what is measured in the two kinds of experiment; AsMeasured is what is recorded. The steps exist (creep_pure_shear_step, creep_simple_shear_step give the result of the step), so the run theorems are not about runs that cannot happen; creepSlab_steps is a rock with a temperature, grain size and fugacity dependent law on every grid of at least five by five vertices. Exact arithmetic; temperature not below zero Celsius (the code cuts it off), constant grain size, no reaction. The body may consist of several phases of the same law.")
c("C164","proved",["StepFlow.hot_creep_history","StepFlow.hot_creep_step","StepFlow.hot_creep_weakens","StepFlow.experiment_softens","StepFlow.creep_starts","StepFlow.mildSlab_step","StepFlow.mildSlab_history"],
"CreepStep is the recorded mechanical step (pure or simple shear), Warmed the thermal half of the same time step; the flow laws see the temperatures the markers give to the cells. mildSlab_history is a history without end on every grid of at least five by five vertices, with a law that depends on temperature. hot_creep_history speaks of N steps because a law may leave the limits of viscosity later. Exact arithmetic; one heat capacity, insulated sides, no adiabatic heating, the temperature within a time step does not change after the mechanical part (as in the code).")
c("C165","partial",["StepFlow.sheared_loading_partial","StepFlow.sheared_not_corotational","StepFlow.sheared_markers","StepFlow.sheared_step","StepFlow.seam_body","StepFlow.seam_loading"],
"sheared_loading_partial is the first half: the closed form after any number of steps, with the program's own start fields, loop and final update and any solver, and the stress carried by markers that move and are copied. sheared_not_corotational disproves the second half: in no such run does any step after the first follow the co-rotational law, whatever the rotation switch (the vorticity the routine rotates by is never filled, C82). seam_loading shows that such runs exist on every grid of at least five by five vertices with the switch on. Assumed: one material, no weight, no air, incompressible, every node fed by a marker.")
c("C166","partial",["Point.stress_of_markers","Point.stress_of_layers","Point.grid_angle_unused","Point.turned_cell_recorded","Aniso.start_director","Aniso.entering_copies_partial","Aniso.entering_layers_iff","Aniso.entering_mirrored","Aniso.shear_turns_downwards","Aniso.entering_on_planet"],
"grid_angle_unused shows that the angle on the grid, which is mirrored for directors that point downwards (C54), changes nothing that is recorded: the invariant does not depend on it and the stress made with it is not used. stress_of_markers is the law of the layers (Spec.Layered) through the interpolation, without the alignment assumed in C136. Entering markers: entering_copies_partial is the case that holds; entering_layers_iff, entering_mirrored and entering_on_planet are the faults, and shear_turns_downwards shows that one step of simple shear leads there. Left out: z = 0 on a planet, where the code takes the arc tangent of infinity.")
c("C167","partial",["Moving.sides_move","Moving.strip_lost","Moving.strip_lost_vertical","Moving.rock_on_wall_lost","Moving.rock_on_floor_lost","Moving.between_walls_kept_partial","Moving.rock_falls_behind","Moving.solved_flow","Moving.between_floors_kept_partial","Moving.rock_sinks","Moving.linear_step"],
"Composition of PureShearALE, SetGridCoordinates, V2P and RogerGuntherII in the order of the main loop. rock_on_wall_lost disproves the property for every grid, box and time step: every marker on a shortened wall is switched off (rock_on_floor_lost: top and bottom in extension). strip_lost gives strips on both sides in which markers are lost at the first stage; between_walls_kept_partial is what holds (markers already between the moved walls are kept, with their exact displacement) and rock_falls_behind their drift; between_floors_kept_partial and rock_sinks are the same for horizontal extension. solved_flow: the flow assumed is the one the solver finds (C154, C160). Left out: which markers between the strip and the moved wall survive the later stages, free surface, pure_shear_ALE = 2 and the conservative interpolation.")
c("C168","partial",["Strain.strain_of_simple_shear_partial","Strain.shear_step","Strain.shear_run","Strain.shear_run_exists","Strain.solved_shear","Strain.strain_of_pure_shear_differs","Moving.kept_inside","Strain.strain_of_substeps","Strain.strain_error_of_substeps","Strain.area_of_substeps","Strain.record_exists","Strain.affine_of_flow"],
"strain_of_simple_shear_partial: the part that holds, over any history, with the interpolation and the wrapping of the program (with and without the conservative interpolation). shear_run_exists: such runs exist from every start; solved_shear: the flow of C161 is such a flow at every step. strain_of_pure_shear_differs disproves the property for pure shear with moving sides, for every pair of markers not above one another, and shows the loss of area. strain_of_substeps, strain_error_of_substeps: the recorded tensor after any number of advection substeps in closed form, and by how much its two stretches fall short of those of the box; area_of_substeps: the tensor loses more area than the box; record_exists: such records exist. Assumed: no air, a marker crosses at most one width of the box per step.")
c("C169","partial",["Moving.box_of_substeps","Moving.flow_after","Moving.rock_of_substeps_partial","Moving.falls_behind_in_substeps","Moving.drift_vanishes","Moving.rock_depends_on_substeps","Moving.wall_rock_lost_in_substeps","Moving.lost_stays_lost"],
"box_of_substeps: the box part, for any velocities. rock_of_substeps_partial: which rock is kept and its exact displacement for any number of substeps, by induction with the rates of each substep (flow_after); falls_behind_in_substeps: its drift against the wall, drift_vanishes: a bound on it inverse to the number of substeps. rock_depends_on_substeps disproves the property for the rock: one against two substeps of a step that halves the box. Left out: free surface (CellFlagging in the loop), periodic sides, reseeding; of the markers outside the final walls, those on a wall are covered (wall_rock_lost_in_substeps), the others per substep in C167 only.")
c("C170","proved",["Hist.strain_is_rate_times_time","Hist.strain_independent_of_substeps"],
"By induction over the moments from the exactness of one update (C77, strain_uniform). The rates of the cells are inputs; that they are uniform for a uniform body is C154-C165.")
c("C171","partial",["BoxArea.area_of_step","BoxArea.incompressible_balanced","BoxArea.incompressible_loses_area","BoxArea.incompressible_history_loses_area","BoxArea.area_in_pure_shear","BoxArea.area_is_lost","BoxArea.area_loss_bound","BoxArea.shear_sides","BoxArea.history_exists"],
"area_is_lost disproves the property for every history in pure shear; incompressible_history_loses_area for any history of flows in which no cell gains or loses volume; area_of_step gives the exact change for any balanced velocities of the sides, which incompressible flows are (incompressible_balanced, a discrete divergence theorem), area_in_pure_shear the exact area after any history, area_loss_bound what does hold (Bernoulli). history_exists: such histories exist from every box. No free surface (the top is then moved otherwise). By C169 substeps do not change the loss.")
