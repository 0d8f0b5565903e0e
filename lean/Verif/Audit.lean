import Verif.Props.Advect
import Verif.Props.AdvectCourant
import Verif.Props.AnisoGrid
import Verif.Props.AnisoLaw
import Verif.Props.Anisotropy
import Verif.Props.ApplyBC
import Verif.Props.Assembly
import Verif.Props.Balance
import Verif.Props.BodyForce
import Verif.Props.BoxArea
import Verif.Props.Breakpoint
import Verif.Props.BreakpointLonger
import Verif.Props.Buffers
import Verif.Props.CellSteps
import Verif.Props.Config
import Verif.Props.Conformal
import Verif.Props.ConstantMixture
import Verif.Props.Coupled
import Verif.Props.CreepBody
import Verif.Props.Datasets
import Verif.Props.Decomposition
import Verif.Props.DefMaps
import Verif.Props.Density
import Verif.Props.Director
import Verif.Props.Dissipation
import Verif.Props.DissipationSolver
import Verif.Props.Extract
import Verif.Props.FiniteDiff
import Verif.Props.FiniteStrain
import Verif.Props.Flagging
import Verif.Props.FlowLaws
import Verif.Props.GrainIter
import Verif.Props.GridCoords
import Verif.Props.GridFields
import Verif.Props.Heap
import Verif.Props.HeapFaults
import Verif.Props.HeatCycle
import Verif.Props.HeatMaxwell
import Verif.Props.History
import Verif.Props.HistoryTensor
import Verif.Props.HistoryUpdate
import Verif.Props.HotCreep
import Verif.Props.Hydrostatic
import Verif.Props.Inflow
import Verif.Props.Input
import Verif.Props.InputUnits
import Verif.Props.Interp
import Verif.Props.InterpCentres
import Verif.Props.InterpNodes
import Verif.Props.JacEdges
import Verif.Props.JacInner
import Verif.Props.JacInnerRow
import Verif.Props.JacRows
import Verif.Props.JacStates
import Verif.Props.Kinematics
import Verif.Props.Krylov
import Verif.Props.KrylovOptimal
import Verif.Props.LawTables
import Verif.Props.Layout
import Verif.Props.LineSearch
import Verif.Props.LocalConv
import Verif.Props.LocalIter
import Verif.Props.LocalWork
import Verif.Props.Maxwell
import Verif.Props.MaxwellShear
import Verif.Props.Melting
import Verif.Props.MovingBox
import Verif.Props.MovingBoxWide
import Verif.Props.NewtonRow
import Verif.Props.NewtonRowFaults
import Verif.Props.NonlinearLoop
import Verif.Props.Numbering
import Verif.Props.P2MPeriodic
import Verif.Props.P2Mastah
import Verif.Props.PatchTest
import Verif.Props.PhaseMap
import Verif.Props.PointConv
import Verif.Props.PointLaw
import Verif.Props.PointLawFaults
import Verif.Props.Powell
import Verif.Props.PowellAccept
import Verif.Props.PowellDirect
import Verif.Props.Reduction
import Verif.Props.Reseed
import Verif.Props.Residual
import Verif.Props.ResidualNorm
import Verif.Props.Restart
import Verif.Props.Rheology
import Verif.Props.Rigid
import Verif.Props.Scaling
import Verif.Props.Setup
import Verif.Props.SparseTools
import Verif.Props.Stencil
import Verif.Props.StencilExamples
import Verif.Props.StencilNodes
import Verif.Props.StepAccept
import Verif.Props.StepAccurate
import Verif.Props.StepClosed
import Verif.Props.StepEnergy
import Verif.Props.StepFinal
import Verif.Props.StepGoesOn
import Verif.Props.StepHeat
import Verif.Props.StepLinear
import Verif.Props.StepLinearBox
import Verif.Props.StepPureShear
import Verif.Props.StepRecord
import Verif.Props.StepSearch
import Verif.Props.StepSimpleShear
import Verif.Props.StepUnique
import Verif.Props.StepUpdate
import Verif.Props.StokesClosed
import Verif.Props.StokesSurface
import Verif.Props.StokesUnique
import Verif.Props.StrainPath
import Verif.Props.StressBC
import Verif.Props.StressCycle
import Verif.Props.SubStepBox
import Verif.Props.SubStepStrain
import Verif.Props.Surface
import Verif.Props.SurfaceChain
import Verif.Props.SurfaceFlow
import Verif.Props.SurfaceMotion
import Verif.Props.SurfaceProcesses
import Verif.Props.Symmetry
import Verif.Props.Tables
import Verif.Props.Tangent
import Verif.Props.Terrain
import Verif.Props.TerrainFlags
import Verif.Props.Thermal
import Verif.Props.ThermalSides
import Verif.Props.ThermalStart
import Verif.Props.ThermalTags
import Verif.Props.TimeSeries
import Verif.Props.Timestep
import Verif.Props.ViscGrid
import Verif.Props.ViscGridStress
import Verif.Props.VonMises

/- Axioms used by every theorem listed in MANIFEST.json (generated by tools/gen_manifest.py). -/
#print axioms Verif.numbering_bijective
#print axioms Verif.increments_reach_solved
#print axioms Verif.pack_spec
#print axioms Verif.pack_after_increment
#print axioms Verif.back_to_solution_vector
#print axioms Verif.applyBC_enforces_partial
#print axioms Verif.applyBC_idempotent_partial
#print axioms Verif.applyBC_stale_corner
#print axioms Verif.decomposition_partition
#print axioms Verif.assembly_merged
#print axioms Verif.assembly_thread_independent
#print axioms Verif.assembly_hyps_u
#print axioms Verif.assembly_buffers_fit_partial
#print axioms Verif.assembly_buffer_overflow
#print axioms Verif.elimination_preserves_equation
#print axioms Verif.x_row_stress_balance
#print axioms Verif.x_row_stress_balance_periodic
#print axioms Verif.z_row_stress_balance
#print axioms Verif.x_row_stress_west
#print axioms Verif.x_row_stress_east
#print axioms Verif.z_row_stress_south
#print axioms Verif.z_row_stress_north
#print axioms Verif.x_stabilisation
#print axioms Verif.z_stabilisation
#print axioms Verif.rigid_no_strain
#print axioms Verif.rigid_no_force_x
#print axioms Verif.rigid_no_force_z
#print axioms Verif.stokes_velocity_block_symmetric
#print axioms Verif.gradient_is_minus_divergence_transpose
#print axioms Verif.Flow.axial_experiment
#print axioms Verif.Flow.shear_experiment
#print axioms Verif.Flow.uncorrected
#print axioms Verif.Flow.viscosity_unit_free
#print axioms Verif.Flow.peierls_axial_experiment
#print axioms Verif.Flow.peierls_unit_free
#print axioms Verif.Flow.linear_reads_diffusion_partial
#print axioms Verif.Flow.linear_one_clobbers
#print axioms Verif.Flow.reference_viscosity_met
#print axioms Verif.Flow.reference_stress_value
#print axioms Verif.Flow.reference_stress_not_met
#print axioms Verif.Flow.peierls_correction_not_cancelled
#print axioms Verif.Resid.defect_is_scaled_residual
#print axioms Verif.Resid.reported_bounds_partial
#print axioms Verif.Resid.small_residuals_reported
#print axioms Verif.Resid.uncounted_ignored
#print axioms Verif.Resid.wall_equation_unreported
#print axioms Verif.Resid.small_grid_stops
#print axioms Verif.Resid.vertical_balance
#print axioms Verif.Resid.horizontal_balance
#print axioms Verif.Resid.horizontal_balance_periodic
#print axioms Verif.Resid.rest_continuity
#print axioms Verif.Resid.body_force_reaches_equation
#print axioms Verif.Resid.lith_layered
#print axioms Verif.Resid.surface_balance
#print axioms Verif.Resid.surface_balance_iff
#print axioms Verif.Resid.stress_base_unbalanced
#print axioms Verif.Resid.horizontal_force_exact
#print axioms Verif.Resid.incision_within_channel
#print axioms Verif.Resid.continuity_iff
#print axioms Verif.Resid.polar_upper_partial
#print axioms Verif.Resid.polar_lower_reversed
#print axioms Verif.Resid.polar_axis_unchanged
#print axioms Verif.Sparse.scaled_diagonal_is_cubed
#print axioms Verif.Sparse.scaling_equalises_partial
#print axioms Verif.Sparse.diagonal_not_equalised
#print axioms Verif.Output.phase_map_nearest
#print axioms Verif.Output.output_maps_partial
#print axioms Verif.Output.compo_is_not_phase
#print axioms Verif.Dataset.main_file
#print axioms Verif.Dataset.marker_file
#print axioms Verif.Dataset.chunk_valid
#print axioms Verif.Dataset.unit_val
#print axioms Verif.Dataset.params_si
#print axioms Verif.Sparse.scaled_rhs_equivalent
#print axioms Verif.Sparse.scaled_system_equivalent
#print axioms Verif.Sparse.unscaled_solution_reached
#print axioms Verif.Sparse.scaling_preserves_symmetry
#print axioms Verif.Sparse.scaling_preserves_transpose
#print axioms Verif.Sparse.extracted_factors
#print axioms Verif.Sparse.picard_scaling_correct
#print axioms Verif.Output.series_means
#print axioms Verif.Output.series_schedule_independent
#print axioms Verif.Output.mean_bounds
#print axioms Verif.Output.mean_invariant_bound
#print axioms Verif.Output.series_invariant_omits_yy
#print axioms Verif.Output.series_history
#print axioms Verif.Output.map_axes
#print axioms Verif.Output.selectMech_spec
#print axioms Verif.Output.map_index_injective
#print axioms Verif.Output.deformation_map_partial
#print axioms Verif.Output.tie_keeps_last_mechanism
#print axioms Verif.Output.map_strain_rate_is_not_the_axis
#print axioms Verif.Bp.continue_with_other_length
#print axioms Verif.Bp.longer_run_series
#print axioms Verif.Bp.same_length_series
#print axioms Verif.Dataset.output_leaves_run_partial
#print axioms Verif.Dataset.residual_dump_restores
#print axioms Verif.Dataset.output_changes_run
#print axioms Verif.Units.model_parameters
#print axioms Verif.Units.material_parameters
#print axioms Verif.Units.nothing_else
#print axioms Verif.Units.scales_do_not_matter
#print axioms Verif.Units.etaVp_unit
#print axioms Verif.Units.end_values
#print axioms Verif.Units.constants_si
#print axioms Verif.Units.spacing_fills
#print axioms Verif.Units.tolerances_follow_scales
#print axioms Verif.Units.default_plastic_tolerance
#print axioms Verif.Units.accepted_iff
#print axioms Verif.Units.too_many_phases
#print axioms Verif.Heap.memory_of_run_partial
#print axioms Verif.Heap.memory_between_steps
#print axioms Verif.Heap.mechanics_needed
#print axioms Verif.Heap.anisotropy_needed
#print axioms Verif.Heap.angle_needed
#print axioms Verif.Heap.kinetics_needed
#print axioms Verif.Heap.jacobian_needed
#print axioms Verif.Heap.switch_once_needed
#print axioms Verif.Heap.solver_needed
#print axioms Verif.Heap.factor_left
#print axioms Verif.Tan.grid_stress_law
#print axioms Verif.Tan.cell_tangent
#print axioms Verif.Tan.vertex_tangent
#print axioms Verif.Tan.picard_frozen
#print axioms Verif.Tan.picard_exact
#print axioms Verif.Tan.slope_of_effective
#print axioms Verif.Tan.air_transmits_nothing
#print axioms Verif.Tan.viscosity_differences_converge
#print axioms Verif.Tan.divergence_density_converge
#print axioms Verif.Tan.differences_left_out
#print axioms Verif.Tan.quadratic_exact
#print axioms Verif.Tan.newton_vertex_converges
#print axioms Verif.Tan.newton_cell_converges
#print axioms Verif.JacRow.x_row_is_derivative_partial
#print axioms Verif.JacRow.z_row_is_derivative_partial
#print axioms Verif.JacRow.x_derivative
#print axioms Verif.JacRow.z_derivative
#print axioms Verif.JacRow.stored_cell_operators
#print axioms Verif.JacRow.stored_vertex_operators
#print axioms Verif.JacRow.incompressible_row_not_derivative
#print axioms Verif.JacRow.stress_side_row_empty
#print axioms Verif.JacRow.stress_bottom_row_empty
#print axioms Verif.JacRow.stress_side_row_not_derivative
#print axioms Verif.JacRow.surface_row_not_derivative
#print axioms Verif.JacRow.x_weights
#print axioms Verif.JacRow.z_weights
#print axioms Verif.JacRow.x_corr
#print axioms Verif.JacRow.z_corr
#print axioms Verif.JacRow.x_periodic
#print axioms Verif.JacRow.z_periodic
#print axioms Verif.Sparse.triplets_label_rows
#print axioms Verif.Sparse.permutation_round_trip
#print axioms Verif.Point.invariant_turn
#print axioms Verif.Point.update_turned
#print axioms Verif.Point.heat_partial
#print axioms Verif.Point.update_total_partial
#print axioms Verif.Point.update_goes_on
#print axioms Verif.Point.stress_below_strength
#print axioms Verif.Point.creep_physical
#print axioms Verif.Point.rock_yields
#print axioms Verif.Point.rock_creeps
#print axioms Verif.Point.tension_stops
#print axioms Verif.Point.heat_wrong_grain
#print axioms Verif.Point.sliding_gives_no_heat
#print axioms Verif.Point.mean_between
#print axioms Verif.Point.cell_update
#print axioms Verif.Point.vertex_update
#print axioms Verif.Point.node_stress_below_strength
#print axioms Verif.Point.air_zero
#print axioms Verif.Point.stops_iff_empty
#print axioms Verif.Point.grid_spec
#print axioms Verif.Point.update_limits
#print axioms Verif.Point.cell_heat_single_partial
#print axioms Verif.Point.cell_heat_mixed
#print axioms Verif.Point.harmonic_mixture_overheats
#print axioms Verif.Point.kinetic_between
#print axioms Verif.Point.kinetic_time
#print axioms Verif.SFlow.column_weights
#print axioms Verif.SFlow.column_mass
#print axioms Verif.SFlow.weight_range
#print axioms Verif.SFlow.static_pressure_partial
#print axioms Verif.SFlow.cut_off_hilltop_overweight
#print axioms Verif.SFlow.vertex_overweight
#print axioms Verif.SFlow.top_row_reads_behind
#print axioms Verif.SFlow.surfaceNodes_spec
#print axioms Verif.SFlow.chainVel_between
#print axioms Verif.SFlow.chainVel_affine
#print axioms Verif.SFlow.surface_velocity_partial
#print axioms Verif.SFlow.uplift_lags
#print axioms Verif.SFlow.flat_uplift_misjudged
#print axioms Verif.SFlow.stale_velocity
#print axioms Verif.SFlow.start_velocity
#print axioms Verif.SFlow.start_divergence
#print axioms Verif.SFlow.start_pressure
#print axioms Verif.SFlow.start_air_pressure
#print axioms Verif.SFlow.expansion_needs_strain
#print axioms Verif.SFlow.chain_placed
#print axioms Verif.CStep.marker_density_partial
#print axioms Verif.CStep.resting_interior_balanced
#print axioms Verif.CStep.marker_density_cut
#print axioms Verif.CStep.resting_surface_never_balanced
#print axioms Verif.CStep.carried_bounded
#print axioms Verif.Time.dt_within_bounds
#print axioms Verif.Time.dt_growth_limited
#print axioms Verif.Time.dt_courant
#print axioms Verif.Time.dt_limit_attained
#print axioms Verif.Time.vmax_spec
#print axioms Verif.Time.dt_growth_not_limited_at_rest
#print axioms Verif.CStep.expansion_is_density_drop_partial
#print axioms Verif.CStep.warming_expands
#print axioms Verif.CStep.expansion_where
#print axioms Verif.CStep.expansion_decided_elsewhere
#print axioms Verif.CStep.constant_density_expands
#print axioms Verif.CStep.compressible_history
#print axioms Verif.CStep.compressible_now_partial
#print axioms Verif.CStep.stale_compressible_flag
#print axioms Verif.CStep.cooling_covers
#print axioms Verif.CStep.cooling_steps_rounded
#print axioms Verif.CStep.perturbation_in_ellipse
#print axioms Verif.CStep.heat_solver_solves
#print axioms Verif.CStep.polar_factor_posdef
#print axioms Verif.CStep.cartesian_ignores_upper
#print axioms Verif.CStep.grain_start
#print axioms Verif.CStep.grain_between_partial
#print axioms Verif.CStep.grain_forgotten
#print axioms Verif.Point.aniso_turned
#print axioms Verif.Point.aniso_law_partial
#print axioms Verif.Point.aniso_goes_on
#print axioms Verif.Point.aniso_heat
#print axioms Verif.Point.aniso_rock_yields
#print axioms Verif.Point.aniso_constant
#print axioms Verif.Point.aniso_rest_stops
#print axioms Verif.Point.aniso_elastic_rate_squared
#print axioms Verif.Point.aniso_heat_excess
#print axioms Verif.Point.aniso_heat_overstated
#print axioms Verif.Point.aniso_limits_ignored
#print axioms Verif.Point.aniso_zero_beta
#print axioms Verif.Point.aniso_cell
#print axioms Verif.Point.aniso_vertex
#print axioms Verif.Point.aniso_cell_rest_stops
#print axioms Verif.Point.aniso_density_zero
#print axioms Verif.Point.factor_mean
#print axioms Verif.Point.factor_goes_on
#print axioms Verif.Point.factor_periodic
#print axioms Verif.Point.factor_isotropic_stops
#print axioms Verif.Point.field_follows
#print axioms Verif.Point.cellBeta_mean
#print axioms Verif.Point.cellAlpha_between
#print axioms Verif.Point.field_frozen
#print axioms Verif.Point.restart_changes_field
#print axioms Verif.Point.grain_update_partial
#print axioms Verif.Point.grain_run
#print axioms Verif.Point.grain_iterations
#print axioms Verif.Point.grainAt_wattmeter
#print axioms Verif.Point.grain_decreases
#print axioms Verif.Point.grain_slope_is_derivative
#print axioms Verif.Point.grain_unique
#print axioms Verif.Time.substeps_cover_step
#print axioms Verif.Flow.power_usable
#print axioms Verif.Flow.linear_usable_partial
#print axioms Verif.Flow.linear_one_unusable
#print axioms Verif.Flow.sliding_usable
#print axioms Verif.Flow.peierls_usable
#print axioms Verif.Flow.grain_usable_partial
#print axioms Verif.Flow.piezometer_nan
#print axioms Verif.Flow.viscosity_pos
#print axioms Verif.Flow.viscosity_trends
#print axioms Verif.Flow.tables_sound
#print axioms Verif.Flow.tables_go_on
#print axioms Verif.Tab.diagrams_good
#print axioms Verif.Tab.diagram_node
#print axioms Verif.Tab.diagram_between
#print axioms Verif.Tab.diagram_units
#print axioms Verif.Tab.model2_density
#print axioms Verif.Tab.smooth_ends
#print axioms Verif.Tab.smooth_between
#print axioms Verif.Tab.smooth_monotone
#print axioms Verif.Tab.smooth_linear
#print axioms Verif.Tab.smooth_jump
#print axioms Verif.Tab.coesite_between
#print axioms Verif.Tab.coesite_monotone_partial
#print axioms Verif.Tab.model4_density
#print axioms Verif.Tab.coesite_outside
#print axioms Verif.Tab.coesite_falls
#print axioms Verif.Tab.checkModels_spec
#print axioms Verif.Tab.short_file_undetermined
#print axioms Verif.Tab.coesite_short
#print axioms Verif.Tab.index_unchecked
#print axioms Verif.Coupled.returned_no_worse_partial
#print axioms Verif.Coupled.iterate_spec
#print axioms Verif.Coupled.preconditioner_solves
#print axioms Verif.Coupled.compressible_one_iteration
#print axioms Verif.Coupled.balanced_state_changed
#print axioms Verif.Coupled.first_step_breakdown
#print axioms Verif.Coupled.solvable_breakdown
#print axioms Verif.Coupled.comp_momentum_exact
#print axioms Verif.Coupled.comp_continuity
#print axioms Verif.Coupled.comp_divergence_decreases
#print axioms Verif.Coupled.comp_converges
#print axioms Verif.Coupled.comp_accepts
#print axioms Verif.Coupled.comp_result
#print axioms Verif.Coupled.comp_returned
#print axioms Verif.Coupled.start_vx_partial
#print axioms Verif.Coupled.start_vz
#print axioms Verif.Coupled.start_vz_not_present
#print axioms Verif.Coupled.start_vz_outside
#print axioms Verif.Coupled.chosen_after_reading
#print axioms Verif.Coupled.unknown_number_no_change
#print axioms Verif.viscous_work_nonneg_partial
#print axioms Verif.viscous_work_pos
#print axioms Verif.velocity_determined
#print axioms Verif.assembled_block
#print axioms Verif.assembled_definite
#print axioms Verif.assembled_direct_converges
#print axioms Verif.stabilisation_negative_work
#print axioms Verif.viscous_work_pos_compressible
#print axioms Verif.gentle_flow_unique_partial
#print axioms Verif.gentle_definite
#print axioms Verif.gentle_terrain
#print axioms Verif.terrain_work_pos
#print axioms Verif.loose_cell_slides
#print axioms Verif.spike_flow_not_unique
#print axioms Verif.rest_same_volume
#print axioms Verif.conformal_flow_meets_no_force
#print axioms Verif.StepFlow.predicted_is_found_partial
#print axioms Verif.StepFlow.update_history_free
#print axioms Verif.StepFlow.search_measures_next_pass_partial
#print axioms Verif.StepFlow.accepted_step_improves_next_pass_partial
#print axioms Verif.StepFlow.stabilised_row_gap
#print axioms Verif.StepFlow.scaled_row_gap
#print axioms Verif.StepFlow.volume_row_gap
#print axioms Verif.StepFlow.recorded_stress_of_recorded_flow
#print axioms Verif.StepFlow.recorded_residual_is_accepted_partial
#print axioms Verif.StepFlow.recorded_force_balance
#print axioms Verif.StepFlow.recorded_force_balance_z
#print axioms Verif.StepFlow.recorded_volume_balance_partial
#print axioms Verif.StepFlow.reset_volume_gap
#print axioms Verif.StepFlow.reset_keeps_divergence
#print axioms Verif.StepFlow.viscoelastic_goes_on
#print axioms Verif.StepFlow.vertex_viscosity_of_flow
#print axioms Verif.StepFlow.density_of_pressure
#print axioms Verif.StepFlow.recorded_density_of_recorded_pressure
#print axioms Verif.Point.mixture_is_mean
#print axioms Verif.Time.model_time_equals_advected_partial
#print axioms Verif.Time.clock_bookkeeping
#print axioms Verif.Time.model_time_differs_after_restart
#print axioms Verif.Time.loop_dt
#print axioms Verif.StepFlow.power_balance
#print axioms Verif.StepFlow.cell_budget
#print axioms Verif.StepFlow.heat_near_work
#print axioms Verif.StepFlow.heat_at_most_work
#print axioms Verif.StepFlow.heat_falls_short
#print axioms Verif.StepFlow.matrix_is_derivative_partial
#print axioms Verif.StepFlow.residual_linear_in_step_partial
#print axioms Verif.StepFlow.one_solve_is_enough_partial
#print axioms Verif.StepFlow.line_search_takes_full_step_partial
#print axioms Verif.StepFlow.extracted_is_shift
#print axioms Verif.StepFlow.change_homogeneous
#print axioms Verif.StepFlow.scaled_by_diagonal
#print axioms Verif.StepFlow.box_linear
#print axioms Verif.StepFlow.plate_linear
#print axioms Verif.StepFlow.step_has_one_flow_partial
#print axioms Verif.StepFlow.one_flow_partial
#print axioms Verif.StepFlow.one_pressure_partial
#print axioms Verif.StepFlow.solution_exists_partial
#print axioms Verif.StepFlow.start_does_not_matter_partial
#print axioms Verif.stokes_no_source
#print axioms Verif.pressure_no_source
#print axioms Verif.stokes_solvable
#print axioms Verif.open_top_grounded
#print axioms Verif.gentle_solvable
#print axioms Verif.work_in
#print axioms Verif.StepFlow.closed_step_iff_partial
#print axioms Verif.StepFlow.closed_pressure_partial
#print axioms Verif.StepFlow.volume_residuals
#print axioms Verif.StepFlow.outflow_prescribed
#print axioms Verif.closed_solvable_iff
#print axioms Verif.volume_stays
#print axioms Verif.sealed_grounded
#print axioms Verif.StepFlow.warming_flow
#print axioms Verif.StepFlow.pure_shear_exact_partial
#print axioms Verif.StepFlow.pure_shear_stress_partial
#print axioms Verif.StepFlow.pure_shear_has_flow_partial
#print axioms Verif.StepFlow.slab_meets
#print axioms Verif.StepFlow.patch_test
#print axioms Verif.StepFlow.pure_shear_any_rheology
#print axioms Verif.StepFlow.stressed_slab_meets
#print axioms Verif.StepFlow.row_x_forces
#print axioms Verif.StepFlow.row_z_forces
#print axioms Verif.StepFlow.even_stress_balanced
#print axioms Verif.StepFlow.maxwell_step
#print axioms Verif.StepFlow.maxwell_step_exists
#print axioms Verif.StepFlow.maxwell_history
#print axioms Verif.StepFlow.maxwell_loading
#print axioms Verif.StepFlow.maxwell_converges
#print axioms Verif.StepFlow.maxwell_exact
#print axioms Verif.StepFlow.slab_maxwell
#print axioms Verif.StepFlow.slab_history
#print axioms Verif.StepFlow.pure_shear_only
#print axioms Verif.StepFlow.heat_step
#print axioms Verif.StepFlow.heat_history
#print axioms Verif.StepFlow.pure_shear_heating
#print axioms Verif.StepFlow.shear_heating_step
#print axioms Verif.StepFlow.shear_heating_history
#print axioms Verif.StepFlow.slab_shear_heating
#print axioms Verif.StepFlow.slab_heating_history
#print axioms Verif.StepFlow.no_shear_heating
#print axioms Verif.StepFlow.hot_maxwell_step
#print axioms Verif.StepFlow.hot_maxwell_history
#print axioms Verif.StepFlow.hot_maxwell_energy
#print axioms Verif.StepFlow.maxwell_energy_step
#print axioms Verif.StepFlow.maxwell_heat_of_stress
#print axioms Verif.StepFlow.hot_maxwell_step_exists
#print axioms Verif.StepFlow.slab_hot_history
#print axioms Verif.StepFlow.plastic_loading_partial
#print axioms Verif.StepFlow.plastic_step_partial
#print axioms Verif.StepFlow.plastic_step_exists
#print axioms Verif.StepFlow.plastic_flow_balanced
#print axioms Verif.Point.vonMises_out
#print axioms Verif.StepFlow.slab_plastic
#print axioms Verif.StepFlow.slab_plastic_history
#print axioms Verif.StepFlow.yielding_run
#print axioms Verif.Time.loop_terminates
#print axioms Verif.Time.converged_means_converged
#print axioms Verif.Time.safe_mode_never_continues_unconverged
#print axioms Verif.StepFlow.balanced_accepted
#print axioms Verif.StepFlow.settled_step
#print axioms Verif.StepFlow.pure_shear_start
#print axioms Verif.StepFlow.pure_shear_run_start
#print axioms Verif.StepFlow.pure_shear_kept
#print axioms Verif.StepFlow.pure_shear_step
#print axioms Verif.StepFlow.pure_shear_run
#print axioms Verif.StepFlow.yielding_step
#print axioms Verif.StepFlow.passes_loop
#print axioms Verif.StepFlow.slab_own_run
#print axioms Verif.StepFlow.stressed_own_run
#print axioms Verif.StepFlow.simple_shear_start
#print axioms Verif.StepFlow.simple_shear_run_start
#print axioms Verif.StepFlow.simple_shear_kept
#print axioms Verif.StepFlow.row_seam_forces
#print axioms Verif.StepFlow.simple_shear_settled
#print axioms Verif.StepFlow.simple_shear_step
#print axioms Verif.StepFlow.simple_shear_run
#print axioms Verif.StepFlow.seam_own_run
#print axioms Verif.StepFlow.safe_step_accurate
#print axioms Verif.StepFlow.recorded_step
#print axioms Verif.StepFlow.loop_record
#print axioms Verif.StepFlow.cycle_kept
#print axioms Verif.StepFlow.step_ends
#print axioms Verif.StepFlow.unsafe_step_untested
#print axioms Verif.StepFlow.slab_records_anything
#print axioms Verif.StepFlow.creep_pure_shear_run
#print axioms Verif.StepFlow.creep_simple_shear_run
#print axioms Verif.StepFlow.creep_pure_shear_step
#print axioms Verif.StepFlow.creep_simple_shear_step
#print axioms Verif.StepFlow.creep_updates
#print axioms Verif.StepFlow.experiment_viscosity
#print axioms Verif.Point.power_update
#print axioms Verif.StepFlow.creepSlab_steps
#print axioms Verif.StepFlow.hot_creep_history
#print axioms Verif.StepFlow.hot_creep_step
#print axioms Verif.StepFlow.hot_creep_weakens
#print axioms Verif.StepFlow.experiment_softens
#print axioms Verif.StepFlow.creep_starts
#print axioms Verif.StepFlow.mildSlab_step
#print axioms Verif.StepFlow.mildSlab_history
#print axioms Verif.StepFlow.sheared_loading_partial
#print axioms Verif.StepFlow.sheared_not_corotational
#print axioms Verif.StepFlow.sheared_markers
#print axioms Verif.StepFlow.sheared_step
#print axioms Verif.StepFlow.seam_body
#print axioms Verif.StepFlow.seam_loading
#print axioms Verif.Point.stress_of_markers
#print axioms Verif.Point.stress_of_layers
#print axioms Verif.Point.grid_angle_unused
#print axioms Verif.Point.turned_cell_recorded
#print axioms Verif.Aniso.start_director
#print axioms Verif.Aniso.entering_copies_partial
#print axioms Verif.Aniso.entering_layers_iff
#print axioms Verif.Aniso.entering_mirrored
#print axioms Verif.Aniso.shear_turns_downwards
#print axioms Verif.Aniso.entering_on_planet
#print axioms Verif.Moving.sides_move
#print axioms Verif.Moving.strip_lost
#print axioms Verif.Moving.strip_lost_vertical
#print axioms Verif.Moving.rock_on_wall_lost
#print axioms Verif.Moving.rock_on_floor_lost
#print axioms Verif.Moving.between_walls_kept_partial
#print axioms Verif.Moving.rock_falls_behind
#print axioms Verif.Moving.solved_flow
#print axioms Verif.Moving.between_floors_kept_partial
#print axioms Verif.Moving.rock_sinks
#print axioms Verif.Moving.linear_step
#print axioms Verif.Strain.strain_of_simple_shear_partial
#print axioms Verif.Strain.shear_step
#print axioms Verif.Strain.shear_run
#print axioms Verif.Strain.shear_run_exists
#print axioms Verif.Strain.solved_shear
#print axioms Verif.Strain.strain_of_pure_shear_differs
#print axioms Verif.Moving.kept_inside
#print axioms Verif.Strain.strain_of_substeps
#print axioms Verif.Strain.strain_error_of_substeps
#print axioms Verif.Strain.area_of_substeps
#print axioms Verif.Strain.record_exists
#print axioms Verif.Strain.affine_of_flow
#print axioms Verif.Moving.box_of_substeps
#print axioms Verif.Moving.flow_after
#print axioms Verif.Moving.rock_of_substeps_partial
#print axioms Verif.Moving.falls_behind_in_substeps
#print axioms Verif.Moving.drift_vanishes
#print axioms Verif.Moving.rock_depends_on_substeps
#print axioms Verif.Moving.wall_rock_lost_in_substeps
#print axioms Verif.Moving.lost_stays_lost
#print axioms Verif.LS.line_search_selects_partial
#print axioms Verif.LS.line_search_accepts_worse_step
#print axioms Verif.LS.line_search_reads_uninitialised_index
#print axioms Verif.LS.line_search_restores_fields
#print axioms Verif.LS.line_search_trials_start_from_initial
#print axioms Verif.LS.argmin_spec
#print axioms Verif.LS.trial_steps
#print axioms Verif.Hist.strain_is_rate_times_time
#print axioms Verif.Hist.strain_independent_of_substeps
#print axioms Verif.BoxArea.area_of_step
#print axioms Verif.BoxArea.incompressible_balanced
#print axioms Verif.BoxArea.incompressible_loses_area
#print axioms Verif.BoxArea.incompressible_history_loses_area
#print axioms Verif.BoxArea.area_in_pure_shear
#print axioms Verif.BoxArea.area_is_lost
#print axioms Verif.BoxArea.area_loss_bound
#print axioms Verif.BoxArea.shear_sides
#print axioms Verif.BoxArea.history_exists
#print axioms Verif.Adv.active_inside
#print axioms Verif.Adv.deactivated_iff
#print axioms Verif.Adv.periodic_reentry
#print axioms Verif.Adv.periodic_far_marker_escapes
#print axioms Verif.Adv.isout_pointwise
#print axioms Verif.Adv.rk4_classical
#print axioms Verif.Adv.rk4_uniform
#print axioms Verif.Adv.rk4_linear
#print axioms Verif.Adv.rk4_dead
#print axioms Verif.Adv.rogerGuntherII_pointwise
#print axioms Verif.Interp.velocity_between_nodes
#print axioms Verif.Interp.velocity_is_bilinear
#print axioms Verif.Interp.velocity_reads_existing_nodes
#print axioms Verif.Interp.velocity_exact_for_linear
#print axioms Verif.Interp.vertex_field_interpolation
#print axioms Verif.Interp.vertices2Particle_interpolation
#print axioms Verif.Interp.centre_field_interpolation
#print axioms Verif.Interp.centers2Particle_eq_interp
#print axioms Verif.Interp.centre_field_periodic
#print axioms Verif.Interp.bilinear_continuous
#print axioms Verif.Interp.bilinear_linear
#print axioms Verif.Interp.velocity_reads_existing_nodes_anywhere
#print axioms Verif.Interp.grid2P_reads_existing_nodes
#print axioms Verif.Interp.airFixX_ignores_air
#print axioms Verif.Interp.airFixZ_ignores_air_partial
#print axioms Verif.Interp.airFixZ_uses_air
#print axioms Verif.Interp.swapAir_ignores_air
#print axioms Verif.Interp.swapAir_vertical
#print axioms Verif.Interp.airMean_ignores_air
#print axioms Verif.Interp.grid2P_ignores_air
#print axioms Verif.Interp.correction_quadratic_x
#print axioms Verif.Interp.correction_quadratic_z
#print axioms Verif.P2M.arithmetic_average_between
#print axioms Verif.P2M.harmonic_average_between
#print axioms Verif.P2M.geometric_average_between
#print axioms Verif.P2M.constant_reproduced
#print axioms Verif.P2M.unfed_nodes_unchanged
#print axioms Verif.P2M.weight_is_kernel
#print axioms Verif.P2M.makePeriodic_spec
#print axioms Verif.P2M.periodic_edge_touches_air
#print axioms Verif.P2M.phase_fractions
#print axioms Verif.P2M.phase_fractions_unnormalised_in_air
#print axioms Verif.P2M.p2m_schedule_independent
#print axioms Verif.Red.reduction_sum
#print axioms Verif.Red.minmax_schedule_independent
#print axioms Verif.Red.extremum_spec
#print axioms Verif.Red.tagged_extrema_partial
#print axioms Verif.Red.tagged_max_of_air
#print axioms Verif.Seed.reseed_slots_safe
#print axioms Verif.Seed.reseed_material_partial
#print axioms Verif.Seed.reseed_stops
#print axioms Verif.Seed.reseed_freed_counters
#print axioms Verif.Seed.reseed_position_partial
#print axioms Verif.Seed.centroid_in_box
#print axioms Verif.Seed.reseed_above_surface
#print axioms Verif.Inflow.inflow_partial
#print axioms Verif.Inflow.inflow_cycle_partial
#print axioms Verif.Inflow.tagPass_spec
#print axioms Verif.Inflow.loop_ends
#print axioms Verif.Inflow.inflow_overflow
#print axioms Verif.Inflow.inflow_narrow_twice
#print axioms Verif.Inflow.inflow_stale_tag
#print axioms Verif.Layout.layout_fills
#print axioms Verif.Layout.layout_surface
#print axioms Verif.Layout.layout_le_announced
#print axioms Verif.Layout.layout_noise_above_surface
#print axioms Verif.Layout.transmute_partial
#print axioms Verif.Layout.transmute_last
#print axioms Verif.Layout.transmute_dead
#print axioms Verif.Surf.surface_polyline
#print axioms Verif.Surf.polyline_unique
#print axioms Verif.Surf.cleanup_spec
#print axioms Verif.Surf.remesh_partial
#print axioms Verif.Surf.remesh_succeeds
#print axioms Verif.Surf.remesh_recycled_dead
#print axioms Verif.Surf.remesh_recycling_useless
#print axioms Verif.Surf.sediment_partial
#print axioms Verif.Surf.sediment_phase
#print axioms Verif.Surf.sediment_gradient_singular
#print axioms Verif.Surf.sediment_overflow
#print axioms Verif.Surf.diffusion_partial
#print axioms Verif.Surf.diffusion_half
#print axioms Verif.Surf.diffusion_parabola
#print axioms Verif.Surf.sedimentation_below_base
#print axioms Verif.Heat.heat_matrix_symmetric_partial
#print axioms Verif.Heat.heat_matrix_offdiag
#print axioms Verif.Heat.heat_matrix_dominant_partial
#print axioms Verif.Heat.heat_matrix_posdef
#print axioms Verif.Heat.heat_solution_exists_unique
#print axioms Verif.Heat.heat_matrix_fits
#print axioms Verif.Heat.heat_balance_iff
#print axioms Verif.Heat.setBCT_tags_agree
#print axioms Verif.Heat.heat_periodic_uneven_not_symmetric
#print axioms Verif.Heat.heat_periodic_air_column
#print axioms Verif.Heat.heat_steps_bounded_partial
#print axioms Verif.Heat.heat_uniform_steady_partial
#print axioms Verif.Heat.heat_no_negative_exit
#print axioms Verif.Heat.heat_step_exists
#print axioms Verif.Heat.heat_content_conserved
#print axioms Verif.Heat.heat_content_gains_sources
#print axioms Verif.Heat.sides_as_prescribed
#print axioms Verif.Heat.heat_conservation
#print axioms Verif.Heat.heat_step_balance
#print axioms Verif.Heat.bottom_flux_uses_dx
#print axioms Verif.Bp.breakpoint_round_trip_partial
#print axioms Verif.Bp.round_trip_items
#print axioms Verif.Bp.old_stress_not_restored
#print axioms Verif.Bp.advection_velocity_rescaled
#print axioms Verif.Bp.writing_leaves_memory
#print axioms Verif.Run.crash_keeps_breakpoint_partial
#print axioms Verif.Run.crash_labels_partial
#print axioms Verif.Run.at_most_three_files
#print axioms Verif.Run.mislabelled_breakpoint
#print axioms Verif.Run.restart_mislabelled_skips
#print axioms Verif.Run.single_file_can_be_lost
#print axioms Verif.Bp.empty_file_accepted
#print axioms Verif.Run.steps_executed
#print axioms Verif.Run.restart_follows
#print axioms Verif.Run.restart_same_state_partial
#print axioms Verif.Input.readNum_spec
#print axioms Verif.Input.readNum_history_independent
#print axioms Verif.Input.readNum_ends
#print axioms Verif.Input.readNum_last_line_needs_newline
#print axioms Verif.Input.readNum_stale_value
#print axioms Verif.Input.readMatProps_spec
#print axioms Verif.Input.readMatProps_freed
#print axioms Verif.Input.readChar_partial
#print axioms Verif.Input.readChar_default_partial
#print axioms Verif.Input.readChar_order_matters
#print axioms Verif.Input.readChar_prefix_matters
#print axioms Verif.Input.readChar_long_value
#print axioms Verif.Config.scale_identities
#print axioms Verif.Config.momentum_form
#print axioms Verif.Config.rheology_form
#print axioms Verif.Config.heat_form
#print axioms Verif.Config.scales_nonzero
#print axioms Verif.Setup.validatePhase_partial
#print axioms Verif.Setup.phase_accepted_without_material
#print axioms Verif.Setup.loaded_phase_unchecked
#print axioms Verif.Setup.posVx_sides
#print axioms Verif.Setup.posVz_sides
#print axioms Verif.Setup.posP_sides
#print axioms Verif.Setup.posP_freeSurface
#print axioms Verif.Setup.setP_spec
#print axioms Verif.Setup.setVx_iff
#print axioms Verif.Setup.setVx_spec
#print axioms Verif.Setup.setVz_iff
#print axioms Verif.Setup.setVz_spec
#print axioms Verif.Setup.template_Vx
#print axioms Verif.Setup.template_Vz
#print axioms Verif.Setup.template_values
#print axioms Verif.Setup.pure_shear_flux
#print axioms Verif.Setup.pure_shear_area
#print axioms Verif.Setup.correction_balances_partial
#print axioms Verif.Setup.smooth_ends
#print axioms Verif.Setup.smooth_range
#print axioms Verif.Setup.smoothPass_sum
#print axioms Verif.Setup.balanceX_spec
#print axioms Verif.Setup.balanceX_range
#print axioms Verif.Setup.balanced_side_has_flux
#print axioms Verif.Setup.balanceS_spec
#print axioms Verif.Setup.southern_side_has_flux
#print axioms Verif.Setup.isEllipse_iff
#print axioms Verif.Setup.ellipse_partial
#print axioms Verif.Setup.ellipse_loses_centre
#print axioms Verif.Setup.isRectangle_iff
#print axioms Verif.Setup.rectangle_partial
#print axioms Verif.Setup.rectangle_loses_centre
#print axioms Verif.Rheo.softenLinear_partial
#print axioms Verif.Rheo.softenErf_partial
#print axioms Verif.Rheo.softenLinear_ends
#print axioms Verif.Rheo.soften_off
#print axioms Verif.Rheo.softenLinear_zero
#print axioms Verif.Rheo.softenLinear_overshoots
#print axioms Verif.Rheo.softenLinear_jump
#print axioms Verif.Rheo.softenLinear_continuous
#print axioms Verif.Rheo.softenLinear_discontinuous
#print axioms Verif.Rheo.plastic_partial
#print axioms Verif.Units.default_tolerance_on_yield
#print axioms Verif.Rheo.yield_cap
#print axioms Verif.Rheo.plastic_inactive
#print axioms Verif.Rheo.plastic_dilation_iff
#print axioms Verif.Rheo.plastic_exponent_misses
#print axioms Verif.Aniso.plasticAniso_on_yield
#print axioms Verif.Rheo.averages_partial
#print axioms Verif.Rheo.limiter_spec
#print axioms Verif.Rheo.phase_sum
#print axioms Verif.Rheo.weighted_bounds
#print axioms Verif.Rheo.averages_tiny_fraction
#print axioms Verif.Rheo.averages_any
#print axioms Verif.Aniso.rotated_is_grid
#print axioms Verif.Aniso.assembly_is_grid
#print axioms Verif.Aniso.grid_is_transverse
#print axioms Verif.Aniso.isotropic
#print axioms Verif.Aniso.rotate_invariants
#print axioms Verif.Aniso.rotateBack_rotate
#print axioms Verif.Aniso.layered_invariant
#print axioms Verif.Aniso.symmetric
#print axioms Verif.Aniso.dissipative
#print axioms Verif.Aniso.director_disk
#print axioms Verif.Aniso.disk_convex
#print axioms Verif.Aniso.average_has_no_frame
#print axioms Verif.Aniso.factor_range
#print axioms Verif.Aniso.layerOf_eq
#print axioms Verif.Aniso.local_is_grid
#print axioms Verif.Aniso.local_is_mirrored
#print axioms Verif.Aniso.local_differs
#print axioms Verif.Rheo.effective_inverts
#print axioms Verif.Rheo.effective_isotropic
#print axioms Verif.Melt.melt_range
#print axioms Verif.Melt.melt_none
#print axioms Verif.Melt.melt_mono
#print axioms Verif.Melt.melt_equilibrium
#print axioms Verif.Melt.meltCell_range
#print axioms Verif.Melt.melt_unknown
#print axioms Verif.Melt.lookup1_partial
#print axioms Verif.Melt.lookup2_partial
#print axioms Verif.Melt.lower_range
#print axioms Verif.Melt.lookup1_node
#print axioms Verif.Melt.lookup1_lower_limit
#print axioms Verif.Melt.lookup2_lower_limit
#print axioms Verif.Flag.solved_cell_faces
#print axioms Verif.Flag.temperature_with_pressure
#print axioms Verif.Flag.rock_velocity_has_cell_partial
#print axioms Verif.Flag.cell_above_surface
#print axioms Verif.Flag.solved_cell_neighbours
#print axioms Verif.Flag.vertex_in_rock
#print axioms Verif.Flag.side_velocity_without_cell
#print axioms Verif.Flag.active_vertex_reason
#print axioms Verif.Grid.grid_indices_inverse
#print axioms Verif.Grid.grid_coordinates
#print axioms Verif.Grid.grid_lines
#print axioms Verif.GridField.centroidsToVertices_spec
#print axioms Verif.GridField.centroidsToVertices_bounds
#print axioms Verif.GridField.centroidsToVertices_frame
#print axioms Verif.GridField.cellsAt_mem
#print axioms Verif.GridField.centroidsToVertices_surface_reduced
#print axioms Verif.GridField.verticesToCentroids_spec
#print axioms Verif.GridField.lith_difference
#print axioms Verif.GridField.lith_monotone
#print axioms Verif.GridField.lith_weight
#print axioms Verif.GridField.lith_air
#print axioms Verif.GridField.lith_top_cell_missing
#print axioms Verif.Config.resolve_consistent
#print axioms Verif.Config.resolve_accepts
#print axioms Verif.Config.resolve_keeps_consistent
#print axioms Verif.Config.capacity_four
#print axioms Verif.Config.capacity_initial
#print axioms Verif.Config.other_shear_style_not_periodic
#print axioms Verif.Surf.zero_mean_partial
#print axioms Verif.Surf.zero_mean_counts_unused
#print axioms Verif.Surf.projection_between
#print axioms Verif.Surf.finer_between
#print axioms Verif.Surf.projection_west_side
#print axioms Verif.Surf.finer_exact
#print axioms Verif.GridField.upwind_partial
#print axioms Verif.GridField.upwind_eq
#print axioms Verif.GridField.upwind_half_step
#print axioms Verif.Time.initial_dt_below_maxwell
#print axioms Verif.Adv.courant_limits_displacement
#print axioms Verif.Adv.rk4_displacement
#print axioms Verif.Adv.gridVel_bounded
#print axioms Verif.P2M.periodic_shift_partial
#print axioms Verif.P2M.centre_weight_shift
#print axioms Verif.P2M.periodic_vertex_shift_fails
#print axioms Verif.Surf.initial_surface_below
#print axioms Verif.Heat.chemical_bounded
#print axioms Verif.Heat.chemical_conserved
#print axioms Verif.Heat.matrixChem_eq
#print axioms Verif.columns_are_equations
#print axioms Verif.x_stencil_nodes
#print axioms Verif.z_stencil_nodes
#print axioms Verif.c_stencil_nodes
#print axioms Verif.colNumber_range
#print axioms Verif.Setup.setParticles_spec
#print axioms Verif.Setup.setParticles_stops
#print axioms Verif.Setup.defaultName_spec
#print axioms Verif.Setup.defaultName_overflows
#print axioms Verif.Aniso.director_unit
#print axioms Verif.Aniso.director_unit_history
#print axioms Verif.Aniso.initDirector_eq
#print axioms Verif.Aniso.director_is_normal
#print axioms Verif.Aniso.director_sign
#print axioms Verif.Aniso.director_rigid
#print axioms Verif.LocalIter.run_partition
#print axioms Verif.LocalIter.run_bounds
#print axioms Verif.LocalIter.run_succeeds
#print axioms Verif.LocalIter.slope_is_derivative
#print axioms Verif.LocalIter.rates_flow
#print axioms Verif.LocalIter.gbs_is_lost
#print axioms Verif.LocalIter.gbs_alone_divides_by_zero
#print axioms Verif.Melt.heatCapacity_partial
#print axioms Verif.Melt.heatCapacity_first_cell_air
#print axioms Verif.Hist.strain_never_decreases_partial
#print axioms Verif.Hist.strain_history_partial
#print axioms Verif.Hist.strain_uniform
#print axioms Verif.Hist.strain_can_decrease
#print axioms Verif.Hist.deform_is_product
#print axioms Verif.Hist.deformation_history
#print axioms Verif.Hist.deformation_gradient_affine
#print axioms Verif.Hist.deformation_gradient_translation
#print axioms Verif.Hist.aspect_ratio_of_strain_ellipse
#print axioms Verif.Hist.aspect_ratio_facts
#print axioms Verif.Hist.stretches_unique
#print axioms Verif.Hist.peak_is_maximum
#print axioms Verif.Hist.fraction_in_range
#print axioms Verif.Hist.fraction_is_sum
#print axioms Verif.Hist.fraction_unchanged
#print axioms Verif.Hist.stress_never_rotated
#print axioms Verif.Hist.rotation_needed
#print axioms Verif.Hist.vorticity_of_rotation
#print axioms Verif.Hist.rotation_formulas
#print axioms Verif.Hist.rotation_invariants
#print axioms Verif.Hist.plain_update_bounded
#print axioms Verif.Hist.plain_update_uniform
#print axioms Verif.Hist.uniform_change_reaches_markers
#print axioms Verif.Hist.subgrid_update_consistent
#print axioms Verif.Hist.subgrid_uniform_offset_kept
#print axioms Verif.Hist.subgrid_moves_towards_grid
#print axioms Verif.Hist.damp_range
#print axioms Verif.Hist.switches
#print axioms Verif.Hist.relaxation_independent_of_units
#print axioms Verif.Hist.pressure_relaxation_depends_on_units
#print axioms Verif.Hist.stress_change_reaches_markers
#print axioms Verif.Kin.linear_flow_exact
#print axioms Verif.Kin.rigid_motion_unnoticed
#print axioms Verif.Kin.normal_rates_trace
#print axioms Verif.Kin.air_rates_zero
#print axioms Verif.Kin.cell_shear_exact_partial
#print axioms Verif.Kin.vertex_normal_rates_partial
#print axioms Verif.Kin.surface_cell_shear_reduced
#print axioms Verif.Ksp.returned_vector
#print axioms Verif.Ksp.loop_fuel
#print axioms Verif.Ksp.first_cycle_optimal_partial
#print axioms Verif.Ksp.exact_preconditioner
#print axioms Verif.Ksp.solution_is_ruined
#print axioms Verif.Ksp.perpendicular_step_ruins
#print axioms Verif.PH.killer_blocks
#print axioms Verif.PH.killer_blocks_fit
#print axioms Verif.PH.comp_blocks_misread
#print axioms Verif.PH.momentum_is_krylov_residual
#print axioms Verif.PH.iteration_momentum
#print axioms Verif.PH.compressible_cells_exact
#print axioms Verif.PH.incompressible_cells_penalty
#print axioms Verif.PH.fixed_points_are_solutions
#print axioms Verif.PH.accepted_partial
#print axioms Verif.PH.negative_divergence_accepted
#print axioms Verif.PH.momentum_not_checked
#print axioms Verif.PH.direct_momentum_exact
#print axioms Verif.PH.direct_divergence_decreases
#print axioms Verif.PH.direct_converges
#print axioms Verif.Dens.linear_reference
#print axioms Verif.Dens.exponential_reference
#print axioms Verif.Dens.hotter_not_denser
#print axioms Verif.Dens.deeper_not_lighter
#print axioms Verif.Dens.density_positive_partial
#print axioms Verif.Dens.exponential_compressibility
#print axioms Verif.Dens.linear_compressibility
#print axioms Verif.Dens.linear_negative
#print axioms Verif.Dens.unknown_density_model
#print axioms Verif.Dens.cell_density_between
#print axioms Verif.Dens.air_cell_weightless
#print axioms Verif.Dens.modulus_between
#print axioms Verif.Dens.expansivity_between
#print axioms Verif.Dens.air_moduli
#print axioms Verif.Dens.periodic_moduli
#print axioms Verif.Dens.empty_node_no_modulus
#print axioms Verif.Dens.cohesion_noise
#print axioms Verif.Dens.progress_implicit
#print axioms Verif.Dens.progress_between
#print axioms Verif.Dens.progress_history
#print axioms Verif.Dens.mixture_end_members
#print axioms Verif.Dens.mixture_between
#print axioms Verif.Dens.mixture_geometric
#print axioms Verif.Dens.mixture_prefactor_partial
#print axioms Verif.Dens.mixture_forgets_pressure
#print axioms Verif.Dens.mixture_correction_partial
#print axioms Verif.Dens.mixture_correction_not_cancelled
