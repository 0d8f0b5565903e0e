# Formal model of MDOODZ7.0: design and trusted base

`/verif/lean` is a Lean 4 (4.33.0) project with Mathlib.  It contains a model of the logic of
`/repo/MDLIB` (C, OpenMP) and proofs of the properties in `properties.jsonl`.
`MANIFEST.json` maps each property to the theorem names.  `seeded/LOG.jsonl` records the
mutation runs (deliberately broken models) that the theorems were tested against.

## Layout

* `lean/Verif/Model/*.lean` -- definitions only. Every definition cites file and lines in /repo.
* `lean/Verif/Spec/*.lean` -- small independent vocabulary used in the statements (what it means
  for a list of ranges to be a partition, a value to be between two others, ...).
* `lean/Verif/Lemmas/*.lean` -- helper lemmas.
* `lean/Verif/Props/*.lean` -- the property theorems, each followed by an `example` showing that
  its hypotheses are met by a concrete non-trivial case.

## Trusted base

1. Lean 4 kernel; axioms `propext`, `Classical.choice`, `Quot.sound` (the axioms used by each
   property theorem are printed by `lean/Verif/Audit.lean`). No other axiom, no `sorry`, no
   `native_decide`, no `bv_decide`.
2. The reading of the C code: the model was written by hand from the source text; the code was
   neither built nor run.
3. Arithmetic: C `double` is modelled by an ordered field (the real numbers, or an arbitrary
   ordered field `K`). Rounding, overflow, NaN and infinities are not modelled. C `int` is
   modelled by unbounded `Nat`/`Int` (no property here is about 32-bit wrap-around).
4. Loops are folds (or pointwise maps where every iteration writes a different cell); pointers
   written by a function are returned values; arrays are functions from indices or lists.
   Uninitialised or freed memory is an explicit universally quantified parameter.
   Out-of-range accesses are made visible as a side condition (`InRange`) or an error outcome.
5. OpenMP: a parallel loop is modelled by an arbitrary distribution of its iterations over
   threads and an arbitrary merge order of per-thread results. The memory model below that
   (data races on the same cell) is not modelled; loops whose iterations write distinct cells
   are treated as maps.
6. External libraries (SuiteSparse, HDF5, libc file I/O) are parameters: the linear solver is
   "some vector satisfying the system", a file is a list of lines / list of records.

## What is modelled, file by file

| file in /repo/MDLIB | modelled | not modelled |
|---|---|---|
| StokesRoutines.c | numbering, `ApplyBC`, extraction, residual back-transfer, domain decomposition, line search, initial solution vectors, residual norms, body forces, polar gravity | solver drivers |
| StokesAssemblyDecoupled.c | Picard isotropic rows (x, z, continuity) with all boundary branches, per-thread assembly and merge, Newton Jacobian rows of the momentum equations | anisotropic Picard rows, Newton continuity rows |
| SparseTools.c | `AddCoeff3`, triplet/CSR conversion, scaling, initial solutions | |
| AdvectionRoutines.c | Courant criterion, Runge-Kutta schemes, sub-stepping, `PureShearALE`, upwind scheme | `PureShearALE_X/_Z`, velocity averaging |
| ParticleRoutines.c | initial positions, `isout`, `P2Mastah`, `Interp_Grid2P`, `V2P`, visualisation grids, `CountPartCell` reseeding, inflow, min/max reductions | strain interpolation, older reseeding variants |
| FreeSurface.c | chain fit, interpolation to nodes, flagging, remeshing, sedimentation, surface diffusion, initial surface, density correction, surface velocity, first chain | |
| ThermalRoutines.c, ChemicalRoutines.c | Cartesian heat and diffusion systems (matrix, right-hand side, solution extraction) | polar and Newton variants, thermal steady state driver |
| InputOutput.c | readers (`ReadInt2`, `ReadDou2`, `ReadMatProps`, `ReadChar`), units and checks of parameters, derived switches, scaling, breakpoints, rotation | binary import of markers |
| Setup.c | boundary templates, side balancing, shapes, marker set-up, file name | |
| RheologyDensity.c | softening, yield, local iterations, plastic correction, averages, effective strain rate, look-ups, strain-rate components, stress update of one phase (`ViscosityConcise`, constant grain size and grain size following the flow), viscosity grid, density laws, cell density, elastic moduli, reaction progress, Huet mixture, viscosity pre-factors, deformation maps, means and time series | printing of bounds in the grain size iteration |
| RheologyParticles.c | strain accumulation, deformation gradient, aspect ratio, peak values, fraction, temperature, pressure and normal stress updates, director, stress rotation, shear stress update, grain size, density | `Xpips` (never called) |
| AnisotropyRoutines.c | anisotropic operator, director, factor and its phase averages, plastic correction, stress update of one phase, viscosity grid | grain size iteration |
| MeltingRoutines.c | melt fraction, heat capacity, mass source | |
| ThermalSolver.c | factorisation and solution with the triangular substitutions as a parameter | CHOLMOD, compressed columns |
| GridRoutines.c | coordinates, indices, averaging, lithostatic pressure, start fields | smoothing of fields |
| Main_DOODZ.c | time loop, nonlinear loop, sub-stepping, restart | calls in between |
| MiscFunctions.c | reductions | |
| Solvers.c | `kspgcr`, pressure blocks, `KillerSolver` loop and final test, `DirectStokesDecoupled` loop, `KSPStokesDecoupled`, `DirectStokesDecoupledComp`; Cholesky substitution is a parameter | copies between matrix formats |
| FlowLaws.c | all tables, scaling, correction factors | |
| HDF5Output.c | dataset tables, conversion, scaling, phase maps, residual dump | HDF5 calls (a file is the list of datasets), float rounding |
| MemoryAllocFree.c | all allocations and releases with their conditions; sizes of the arrays that are written out | the other sizes |
| FD_Jacobian.c | difference quotients of viscosity, dilation, density and anisotropy factor | the rheology they call is a parameter |

## Plan per property

| id | modelled | how proved |
|----|----------|-----------|
| C01 | `EvalNumberOfEquations`: fold over the Vx, Vz, P nodes with a counter | invariant of the fold: numbers = rank among active nodes |
| C02 | `ExtractSolutions2`, `InitialiseSolutionVector`, `BackToSolutionVector` as maps/folds on top of C01 | from C01's rank characterisation |
| C03 | `ApplyBC`: six loops as successive updates of the field | case analysis of the last writer of each node |
| C04 | `DomainDecompositionDecoupled` fold | induction over threads |
| C05 | per-thread assembly + `MergeParallelMatrix` | concatenation lemma: per-thread lists over a partition append to the serial list; offsets are prefix sums |
| C06 | buffer sizes `nnz/n_th` against rows x entries | arithmetic; expected FALSE for small grids: witness plus sufficient condition |
| C07 | `AddCoeff3` fold over a stencil | induction over the stencil |
| C08 | coefficients of `Xmomentum/Zmomentum_InnerNodesDecoupled` + `StrainRateComponents` + stress law | field identity (`ring`/`field_simp`) |
| C09 | same | specialisation / direct identity |
| C10 | same + `Continuity_InnerNodesDecoupled` | identities between shifted coefficients |
| C11 | `ScaleMatrix`, `ScaleVelocitiesRHSBack` on finite matrices | sums |
| C12 | `DecompressCSRtoTriplets`, `Permute*` | induction |
| C13 | `EvaluateCourantCriterion` | order arithmetic after folding max over nodes |
| C14 | advection block of `RunMDOODZ` | ceil arithmetic |
| C15 | step loop with abstract solver outcomes | induction; expected FALSE with safe mode: witness plus partial |
| C16 | nonlinear loop as a fuelled state machine driven by an arbitrary residual sequence | measure argument |
| C17 | `LineSearchDecoupled` fold over 6 trials, uninitialised `ip` as parameter | argmin invariant |
| C18 | `isout`, `isoutPart` | case analysis |
| C19 | `RogerGuntherII` | algebra |
| C20 | `Interp_Grid2P`/`V2P` index and weights | floor/ceil bounds + convexity |
| C21, C22 | `P2Mastah` (stencil 1 and 9) as weighted sums | weighted mean inequalities |
| C23 | reductions over arbitrary schedules | permutation invariance of folds |
| C24 | `MinMaxArrayTag` | expected FALSE when node 0 is air: witness plus partial |
| C25, C26 | `CountPartCell` reseeding loop | invariant; C26 expected FALSE (`||`), witness plus partial |
| C27 | `ParticleInflowCheck` | invariant, overflow branch as finding |
| C28 | `PutPartInBox` | counting |
| C29 | `TransmutateMarkers` | expected FALSE (last marker), witness plus partial |
| C30, C31 | `MarkerChainPolyFit`, `CleanUpSurfaceParticles` | algebra |
| C32 | `RemeshMarkerChain` | invariant, recycled markers stay dead = finding |
| C33 | `AddPartSed` | algebra, deformation gradient finding |
| C34 | `DiffuseAlongTopography` | finding: witness plus partial |
| C35-C37 | `EnergyDirectSolve` (Cartesian, non-polar) | M-matrix argument on finite grids |
| C38, C39 | breakpoint as ordered list of (field, scale) records | induction on the record list; table of fields, finding for sxxd0/szzd0/sxz0 |
| C40 | file system state machine with crash points | invariant over step histories; mislabel finding |
| C41 | step loop | induction |
| C42-C44 | line-based parsers on lists of characters | induction over lines |
| C45 | `ScaleMe` | field identities |
| C46 | `ValidatePhase` | expected FALSE at Nb_phases and negatives |
| C47 | `SetBCs` classification and templates | case analysis |
| C48 | templates + `PureShearALE` | sums |
| C49 | balancing and smoothing | induction; expected FALSE for the sum |
| C50 | predicates | trigonometry; expected FALSE, witness plus partial |
| C51 | `Softening` | expected FALSE for onset > 0, witness plus partial |
| C52 | plastic correction | algebra; finding with dilation |
| C53 | averages | weighted AM-GM-HM |
| C54, C55 | anisotropic operators | trigonometric / polynomial identities |
| C56, C57 | melting, look-up tables | order arithmetic; findings |
| C58 | `CellFlagging` | case analysis of passes |
| C59 | grid indices, coordinates | div/mod arithmetic |
| C60, C61 | averaging, lithostatic pressure | algebra, induction downwards |
| C62 | switch resolution | case analysis |
| C63, C64, C65 | surface mean, surface interpolation, upwind | sums; findings |
| C66, C67 | initial step, displacement per sub-step | order arithmetic |
| C68 | periodic `P2Mastah` | shift invariance; expected FALSE at vertices |
| C69 | `CorrectTopoIni` | case analysis |
| C70 | `ChemicalDirectSolve` | same M-matrix argument as C35-C37 |
| C71 | stencil node maps + numbering | invariant of tags |
| C72, C73 | `SetParticles`, `DefaultTextFilename` | induction; buffer size |
| C74 | director update | algebra, induction over steps |
| C75 | `LocalIterationViscoElastic` | Newton loop with arbitrary exit, invariant on brackets |
| C76 | `UpdateAlphaCp` | monotone melt law; expected FALSE if the first cell is air |
| C77 | `AccumulatedStrainII` | non-negative bilinear weights between cell centres; induction over steps; FALSE beside the sides |
| C78 | `DeformationGradient` | matrix product; affine fields reproduced by both interpolations |
| C79 | `FiniteStrainAspectRatio` | eigenvalues of the Cauchy-Green tensor against an extremal definition of stretch |
| C80 | `UpdateMaxPT` | induction over the history |
| C81 | `UpdateParticlePhi`, `UpdateParticleX` | clipping; interpolation of constants |
| C82 | block "Large strain" of `UpdateParticleStress`, vorticity of `StrainRateComponents` | FALSE: never rotated; formulas compared with `R T Rᵀ` |
| C83 | `UpdateParticleEnergy`, `UpdateParticlePressure` | bounds of interpolation in both directions (C20, C21) |
| C84 | relaxation factors, `ScaleMe` | units cancel; FALSE for pressure |
| C85 | branches of `UpdateParticleStress` | case analysis; FALSE for switch values above 2 |
| C86, C87 | `StrainRateComponents` | differences of linear fields; invariance under rigid motion; air corners |
| C88 | `kspgcr` with an arbitrary preconditioner | invariant: stored residual = remainder of stored solution; directions shorten it |
| C89 | first cycle of `kspgcr` | images of the directions orthonormal and spanning the Krylov space, Pythagoras |
| C90 | `kspgcr` with division by zero as `none` | FALSE: witnesses |
| C91 | diagonal pressure blocks of three solvers | induction over cells; FALSE outside the default solver |
| C92 | one pass of the loop of `KillerSolver` | block elimination |
| C93 | loop and final test of `KillerSolver` | PARTIAL: signed maximum; witnesses for what is missed |
| C94 | loop of `DirectStokesDecoupled` | energy argument (augmented Lagrangian), induction |
| C95 | `EvaluateDensity` with uninitialised `rho` as a parameter | analysis over ℝ (monotone, derivative); FALSE for the linear law: witness |
| C96 | phase loop of `UpdateDensity` for a cell | weighted mean |
| C97 | `ShearModCompExpGrid` for a node and the periodic sides | weighted mean of reciprocals; induction over rows; FALSE for empty nodes |
| C98 | the progress update of `ViscosityConcise`, `erfc` a parameter | algebra; induction over steps |
| C99 | `HuetAveragingModel` | real powers; FALSE for pressure dependence and cancelled corrections: witnesses |
| C100 | correction factors, scaling and viscosity pre-factors | real powers; compared with tensors of the experiments (Spec/FlowLaws) |
| C101 | diffusion table, user-defined laws, Peierls correction | case analysis; FALSE in three cases: witnesses |
| C102 | residual loops under any thread order | induction over the visiting order; injectivity from C01 |
| C103 | reported norms | bound per counted equation; FALSE for the outermost rows and columns: witness on a 6x6 box |
| C104 | body forces, lithostatic pressure and momentum residuals together | algebra from C61's pressure differences; free surface as an equivalence |
| C105 | polar gravity | arctangent identities; FALSE below the axis |
| C106 | diagonal scaling | entry formula of C11; FALSE: diagonal is cubed |
| C107 | visualisation grids | invariant of the loop over markers: best distance so far and its phase |
| C108, C109 | table of all datasets with array sizes, conversion and scaling; sizes and dimensions listed separately in Spec/Datasets | general lemma for one entry; agreement of the two tables is a finite computation, the sizes, options and units are universally quantified |
| C110 | means, time series | sums over cells as reductions; induction over steps |
| C111 | deformation maps | nested loops visit each index once; order of the comparisons |
| C112 | reader with another number of steps | the file is the same as that of a reshuffled state; then C38 |
| C113 | what the writers change | scaling and its inverse; FALSE with composition diffusion: witness |
| C114 | `ReadInputFile`: table of the 104 real parameters with name, default and divisor | each divisor has the exponents of its dimension (computed), a lemma turns exponents into the unit; the documented table is written separately (Spec/Units.lean) |
| C115 | the checks in the loop over the phases and the two loops over the density models | loop invariant; equivalence with a predicate in SI units |
| C116 | tables of allocations, releases and guarded uses; the nonlinear loop as a sequence of passes with arbitrary endings | state machine over pointers; loop invariants; bit masks for the tables; converses for the conditions |
| C117 | `RheologicalOperators`, cells and vertices, Newton and Picard | derivative along every direction of the state |
| C118 | `DerivativesOnTheFly_n/_s`: perturbed phase averages, forward or centred differences | limits of difference quotients through the averages |
| C119 | Newton rows of the x- and z-equations (all 27 coefficients, guards, ghost tags) and the driver loops | coefficient table against linearised stresses for arbitrary flags; strain rates and averages as affine functions of the fields; chain rule; counterexamples for the excluded nodes |
| C120 | `ViscosityConcise` for one phase: mechanisms, local iterations, return mapping, works | invariants under rotation; the update is a function of invariants times the strain rate |
| C121 | the same | balance of rates at the solution of the local iterations, with its tolerance; sign analysis; counterexamples |
| C122 | `NonNewtonianViscosityGrid`: loop on phases, three means, limits, cells and vertices | sums over phases; weighted means between bounds; invariant of the node loop |
| C123 | the same | sum over phases of C121; two-phase counterexample |
| C124 | kinetic branch of `ViscosityConcise` | convex combination; signs |
| C125 | `SurfaceDensityCorrection` on the tags of `CellFlagging`, body force and vertical momentum residual of a column | sum of the weights; downward induction on the residuals of the rows |
| C126 | `SurfaceVelocity`: two loops over the nodes, interpolation to chain markers | invariant of the row loop; affine interpolation; depth of the row read |
| C127 | `InitialiseSolutionFields` before `ApplyBC` | pointwise loops; divergence of the linear flow |
| C128 | `SetTopoChainHorizontalCoords`, `BuildInitialTopography` (callbacks as functions) | counting markers per column |
| C129 | order of `UpdateDensity`, `P2Mastah`, `SurfaceDensityCorrection`, `UpdateParticleDensity` in a step as a recursion per cell | closed form by induction; signs of the logarithms |
| C130 | `MassSourceTerm`, continuity right-hand side | sums over phases; compared with `EvaluateDensity` |
| C131 | `DetectCompressibleCells` over a history of steps | induction over the history |
| C132 | `ThermalSteps`, `SetThermalPert`; doubles as rationals with a 53-bit significand | rounding error analysis; induction over the loops |
| C133 | `FactorEnergyCHOLMOD`, `SolveEnergyCHOLMOD` with the substitutions as a parameter | matrix algebra |
| C134 | `InitialiseGrainSizeParticles`, `UpdateParticleGrainSize` | interpolation bounds |
| C135 | Point update of one anisotropic phase over the reals (all branches of `ViscosityConciseAniso`, local Newton iteration as a bounded loop, exits as outcomes); spec: law in the frame of the layers and rotation of tensors. Rotation by equivariance of every step, law from the exact balance at convergence, negations by witnesses |
| C136 | Loops over cells and vertices of `NonNewtonianViscosityGridAniso` as folds; means by the fold lemmas of C122 |
| C137 | `UpdateAnisoFactor` with its three means and the periodic copies; mean by induction over the phases |
| C138 | The calls along a run as a state machine over time steps (first call, calls when elastic, restart); invariant over all steps |
| C139 | The joint iteration of viscosity and grain size over the reals; spec: growth equals reduction (wattmeter). Diffusion creep at the balanced grain size is itself a power law, so the joint residual is that of C75 with one law exchanged; loop invariant over the passes |
| C140 | the tables as functions of the law number with the numbers of the source, scaling and correction as in C100 | case distinction over the table, then the general theorems on the stress update (C121) |
| C141 | `ReadBin`, limits of the ten diagrams, checks of the density models, reading and smoothing of the quartz-coesite table, look-ups | algebra of the bilinear weights; invariants of the smoothing loop; concrete rising table for the negation |
| C142 | `KSPStokesDecoupled`: concatenated matrix, block preconditioner, restarted loop | invariant of the loop (with C88-C90); block algebra; concrete systems for the negations |
| C143 | loop and final test of `DirectStokesDecoupledComp` | energy argument over incompressible cells, induction |
| C144 | `BuildInitialSolutions`, choice of the solver in `SolveStokesDefectDecoupled` with the adjustments of `ReadInputFile` | invariant of the gathering loop (counting unknowns before a node) |
| C145 | quadratic form of the assembled velocity rows (model of C08, C10), for every numbering of the unknowns | rows as stress balances of the field mirrored at walls, summation by parts, cell and vertex dissipation as squares; instance of the convergence theorem of C94 |
| C146 | flags of `CellFlagging` (model of C58) on the mesh of C145 | rock columns and rows below gentle topography, no work implies rest column by column and row by row; kernel vector of a loose cell; a spike as witness |
| C147 | `UpdateNonLinearity` put together from strain rates (C86), stress update on the grid (C122) and body forces (C104); passes, trials and the end of the step (`Model/StepUpdate.lean`) | an update overwrites everything a later one reads, so any history can be dropped; row by row comparison of trial and next pass; exact gap for each excluded switch |
| C148 | the same model, final update and pressure copy | stress of each node from the model of C122; volume parts phase by phase from the return mapping; a dilatant rock in tension as witness of the gap |
| C149 | constant viscosity with mixing in the point update of C122 | evaluate the update: constant creep meets the stopping rule at its first guess; means bounded by their members |
| C150 | the model of C147/C148 and the sums over the mesh | summation by parts on the staggered grid (C120's `work_by_parts`) turns the momentum rows into a power balance; Jensen on the four corners of a cell; a 3 by 3 box with an exact flow as witness of the loss |
| C151 | the model of C147, the extraction of the solution (Model/ApplyBC.lean) and the assembled rows (C08) | the update of a linear material is linear in the strain rate and the pressure (`Point.linear_update`); the rows of the matrix and the divergence of the stresses are the same sums (C08's `x_row_stress_balance`), so the residual is affine along any change that keeps the boundary conditions; the solution vector is such a change; the norms are then |1 + s| times the old ones and the search finds s = -1; examples: the box of C150 from rest, and a 5 by 5 box |
| C152 | A step has exactly one flow. `stokesRow` applies the assembled momentum, volume and compressibility coefficients to a field; `Grounded` says which pressures the equations tie down; `Determined`/`Tied` state them for a `Setting`. | Energy: `work_in` (the form of C145 with hypotheses inside the arrays only) and the gradient being minus the transposed divergence give `stokes_no_source`; `pressure_no_source` by induction over `Grounded`; `stokes_solvable` since an injective linear map of a finite-dimensional space is onto; `gentle_solvable` with the flags of C58; `step_has_one_flow_partial` through `numbering_bijective`, `change_bc` and C151. |
| C153 | A closed incompressible model has a flow exactly if the walls let out what is produced. Assembled rows of C152 with no compressibility; `outflow` sums wall velocities, `production` the right-hand sides of the volume equations. | `volume_row` and telescoping sums (`volume_stays`), C152 with the first cell made compressible, whose pressure then vanishes; pass of the nonlinear loop as in C152. |
| C154 | A uniform body in pure shear gets the textbook flow on every grid. Walls from the model of `SetBCs` with the pure shear functions (C47, C48), one viscosity and density, the pass of the nonlinear loop of C148/C151. | The textbook flow is balanced (rates and stresses by `cell_rates`, `isoviscous_recorded`, forces by `recorded_force_balance`), the rest is C153. |
| C155 | The patch test is passed by every flow law. `SameEverywhere` says that all cells and all vertices carry the data of the first; the update of C148 with a linear flow (`Spec.linearFlow`, sampled at the nodes) and one pressure. | Rates by C86 (`linear_flow_exact`, `cell_shear_exact_partial`, `vertex_normal_rates_partial`), so that every point law gets the same input (`grid_spec`); averages of equal numbers (`toVerts_same`); rows as forces (`row_x_forces`, `row_z_forces`). |
| C156 | A Maxwell body loads along the textbook curve, step after step, through the markers. `Model/StressCycle` joins the models of P2Mastah, of the viscosity routines, of the nonlinear step and of UpdateParticleStress into the way of the stress through one step; `Spec.BackwardEuler` is the implicit Euler rule of the Maxwell law. | Equal marker stresses give equal grid stresses (`toGrid_uniform`), the flow is the textbook one, with the pressure of its weight (`even_stress_balanced`, `pure_shear_only` from C152), the local iteration ends with the Maxwell viscosity (`run_maxwell`), the change reaches the markers exactly (`toMarkers_uniform`); induction over the steps; limit by `(1+x/n)^n`. |
| C157 | Evenly heated rock warms evenly, and a sheared body warms by its shear heating. `Model/HeatCycle` joins P2Mastah, the thermal system with the recorded dissipation and UpdateParticleEnergy. | Equal marker temperatures give equal cell temperatures; the uniform rise solves the balances and the maximum principle (C36) leaves no other; `uniform_change_reaches_markers` (C83); rates of the textbook flow (`rock_rates`); induction over the steps. |
| C158 | The work spent on a Maxwell body is stored or warms it, and never yields more. `HotMaxwellStep` is the step of C156 and that of C157 with the recorded dissipation between them; energies in `Spec/Maxwell`. | Dissipation of the local iteration of a Maxwell point (`maxwell_heating`), second invariant of the recorded stress (`maxwell_heat_of_stress`); histories of C156 and C157; the identity 2 a (a - b) = a^2 - b^2 + (a - b)^2 summed over the steps. |
| C159 | A yielding body in pure shear follows the Maxwell curve up to its strength and stays there. `PlasticStep` is the step of C156 with a constant strength and the uniform flow; the yield rule is in `Spec/VonMises`. For a box that keeps its size C160 proves it for the program's own loop. Partial: for a moving box, that the solver returns the uniform flow is not proved. | Return mapping of a point with constant strength (`Point.vonMises_out`), the same at all nodes (`PlasticBody.recorded`), balance of an even stress (C153), uniform fields through the markers (C156); induction over the steps with the bounds `min(Maxwell, Y) ≤ y ≤ min(Maxwell, Y) + 1e-17`. |
| C160 | A flow in balance is taken as it is; the pure shear of a uniform body needs no solve. `Model/StepLoop` models InitialiseSolutionFields, the nonlinear loop with its fields (Main_DOODZ.c:631-871) and the start of the run; the solver is a parameter, so the theorems hold for every solver. | The loop leaves at the first test when the measured rows are zero (`balanced_accepted`); start fields equal the textbook flow node by node (`pure_shear_start`, `pure_shear_run_start`), later steps keep it (`pure_shear_kept`); induction over steps with C155 (`pure_shear_run`) and C159 (`yielding_run`). |
| C161 | Simple shear of a uniform body between moving walls with periodic sides needs no solve. Walls from the model of `SetBCs` with the simple shear functions (style 1), the step of C160. | Start fields equal the textbook flow node by node, ghost rows and both sides of the seam included (`simple_shear_start`); the row at the seam is a force balance with the last cell as western neighbour (`row_seam_forces`), the other rows by the patch test of C155; induction over steps (`simple_shear_run`). |
| C162 | What a recorded time step guarantees about its flow. The step of C160 (`Model/StepLoop`) with an arbitrary solver. | Invariant between passes (`Cycle`: time step, restart fields, reference residual) kept by every pass (`cycle_kept`), induction over the passes (`loop_record`), joined with C16 (`safe_step_accurate`); the budget of C16 bounds the passes (`step_ends`); a counterexample without safe mode (`slab_records_anything`). |
| C163 | A creeping rock in pure or simple shear has the stress of the laboratory. The update of `Model/PointLaw` and `Model/LocalIter`, the law as read (`Model/FlowLaws`), the step of C160 and C161. | The first guess of the local iteration is the exact viscosity of a single power law (`power_update`); the conversion of the law is that of C100 (`experiment_viscosity`); every node of an even body has the same update (`creep_updates`); the flow balances whatever the law (C155), so every step is recorded at once; induction over steps. |
| C164 | Shear heating and creep feed back on each other as the law says. The mechanical step of C163 and the thermal cycle of C157 in one time step: the temperatures the markers give to the cells are those the flow laws see, the heating recorded is the source of the thermal solve. | One temperature of all markers gives one temperature of all cells (C157), so C163 gives the stress of the law at it; its work is an even source, so the solve warms every cell, and then every marker, alike; induction over steps. `experiment_softens` compares the law at two temperatures. |
| C165 | Simple shear of an elastic body follows the Maxwell law, turning with the flow. The mechanical step of C161 with the stress cycle of C156 on periodic sides; the co-rotational law (Jaumann rate, implicit Euler) is stated separately in Spec.Corotational. | Markers with one stress give one stress to all nodes; the textbook flow is settled for it (C161), so the step is recorded without a solve and the recorded stress is one implicit Euler step; induction. The normal stresses stay zero, so no step meets the co-rotational law (fault, witness for every run): partial. |
| C166 | Stress depends on the layers of a rock, and new markers continue the layers. `startDirector` (InitialiseDirectorVector) and `enteringDirector` (AssignMarkerPropertiesInflow) in Model/Director; the nodes of C136. | The update of a phase depends on the angle only through an invariant and through a stress that the averages do not take; so any angle gives the same record, and the final stress is that of the director functions. These are even in the director, so interpolation gives them whatever the signs. Entering markers: the arc cosine loses the sign of one component; exact condition and witnesses. |
| C167 | Walls that move with the rock carry the rock along. `moveWithBox` (Model/MovingBox): box and grid first, then the markers with the same velocity arrays, as in the main loop. | V2P reproduces a velocity linear in the coordinate at and beyond the east line and mirrors it before the west line; nodal velocities of the old lines on the new lines give other rates. First Runge-Kutta stage against the new walls: loss. All stages inside for markers between the new walls: exact displacement, compared with the displacement of the wall. |
| C168 | The finite strain recorded on a marker is the strain of the motion of the markers. `rk4` with `V2P` and periodic sides, then `deformMarker` at the new position, as in the main loop. | In simple shear the velocity of a marker is the same at all stages, the square of the velocity gradient vanishes, and both records are sums; induction over the steps. Pure shear: displacement of C167 against one Euler step; over substeps the factors of the tensor telescope (induction along C169's run). |
| C169 | Dividing a step into advection substeps does not change where things end up. `subSteps` (Model/MovingBox): the loop over `moveWithBox` with unchanged velocity arrays. | The sides move by the same amount in every substep, for any velocities. For the rock, the flow in the box moved so far is uniform with rates `eps/(1 - k eps dt)`, so C167 (stated for two different rates) applies to every substep; induction over the substeps. |
| C170 | Accumulated strain is strain rate times time, whatever the path and the substeps. `accumulate` (Model/History) run over moments with a grid of their own. | Weights add up to one wherever the marker is; induction over the moments. |
| C171 | A box whose sides move with an incompressible flow keeps its area. `pureShearALE` (Model/Setup) over a list of steps. | Algebra of one step from the balance of the mean side velocities, which follows from the divergence of the cells by summation; product over the steps by induction; Bernoulli for the bound. |

## Findings (statements the code violates, each with a theorem)

* Breakpoints: old stresses are stored but read into the current stresses; the advection velocities
  are divided by their scale although never read; the rename before the rewrite leaves a mislabelled
  file; `delete_breakpoints = -1` can lose everything; short files are accepted.
* Heat: with periodic sides the matrix is not symmetric for unequal side conductivities; the bottom
  flux is scaled with dx.
* Input: an unterminated last line is ignored; a key line without equal sign takes leftovers of an
  earlier line; use of freed memory in `ReadMatProps`; `ReadChar` depends on order and prefix.
* Set-up: phases equal to the number of materials and negative phases are accepted; smoothing after
  balancing breaks the zero sum; ellipse and rectangle centres are rotated; the default file name is
  written past its block.
* Markers: see C25-C29 and C68. Surface: see C32-C34, C63.
* Softening with a positive onset strain jumps and overshoots. Return mapping with dilation leaves the
  yield surface. Phase fractions below 1e-13 are dropped without renormalising. The anisotropic routine
  ignores the viscosity cut-offs. The layer angle from `acos` is mirrored for half of the orientations.
  Grain boundary sliding never contributes.
* Melting: `20,200` is a comma expression (model 11); model 41 divides by the squared pressure; unknown
  models melt everything; the air test of the heat capacity looks at the first cell of the grid.
* Look-up at the exact lower table limit reads before the table.
* Averaging to vertices that touch air divides by four; lithostatic pressure misses the top cell when
  there is no air; upwind advection covers half the time step.
* Marker histories: strain can decrease beside the sides; stresses are never rotated with the material and
  the vorticity field is erased near markers; the relaxation time of pressure is dimensionally wrong;
  values of `subgrid_diffusion` above 2 drop the stress update.
* Solvers: the Krylov solver divides zero by zero when started at the solution or after a step without
  progress; after a restart it subtracts a stale direction; the stopping tests look at the largest residual
  with its sign, so a negative divergence of any size passes; the momentum balance is not tested after the
  loop; two of the compressible solvers invert the wrong entry of the pressure block beside air.
* Material laws: the linear density law turns negative when hot; an unknown density model returns an
  uninitialised variable; the mixture law forgets activation volume, grain size, fugacity and melt; the
  "reference stress" law misses its reference stress; diffusion law 1 overwrites the dislocation law;
  cancelling the correction of a Peierls law has no effect.
* Stokes residual: the reported norms leave out the outermost momentum equations; grids of up to four
  vertices in one direction always stop; polar gravity is reversed in the lower half plane; diagonal
  scaling multiplies by the diagonal instead of dividing by its root, so it cubes the diagonal; rows with a
  prescribed normal stress carry no weight.
* Output: the phase map of standard resolution shows the dual phase; the mean strain-rate invariant leaves out the
  out-of-plane component; deformation maps evaluate the law at root three times the strain rate of their
  axis; continuing a run with another number of steps garbles the time series; with composition diffusion
  the output writer overwrites the composition that the next step uses.
* Input: more than 20 phases overrun the material arrays without a message; the default tolerance of the plastic
  correction, `eta_tol`, is 1e11 (the set-ups use 1e-8): with the default the correction accepts its first
  guess, which without overstress is on the yield surface; with the smaller value the iteration leaves it.
* Memory: with `mechanical` off, with a `lin_solver` other than -1, 0, 1, 2, or with `anisotropy` other than 0 or 1,
  uninitialised or NULL pointers are released or used; `marker_aniso_angle` with a set-up function but without
  anisotropy writes to NULL; kinetics of a phase without the switch of the model reads an uninitialised pointer;
  `Picard2Newton` with `Newton = 0` uses a Jacobian that was never allocated, and after a step that did not reach
  the switch the next switch reads an uninitialised flag; a step that stagnates in its first pass loses the
  Cholesky factor; the block of the lateral stress is never released.
* C119: `BuildJacobianOperatorDecoupled` sets `comp = 1` for every model (StokesAssemblyDecoupled.c:1820), so the
  Newton matrix of an incompressible model subtracts a third of the volume change that the strain rates do not;
  rows of nodes on stress sides are not assembled (commented `NOT CODED YET`), which leaves zero rows; next to the
  free surface the matrix weights rock cells by one over their number, the averages by a quarter; the Newton
  continuity rows read `comp_cells` at the index of a vertex (2080) but do not use the value.
* C121: in tension (negative strength) the stress is reset to 0.1 MPa even where the trial stress is smaller; the plastic
  rate and the dissipation then come out negative and the program ends with `exit(1)`.  The viscosity of diffusion
  creep is evaluated at the grain size of the cell, its heat at the reference grain size of the material.  Grain boundary sliding is not part
  of the heat at all.
* C123: the heat of mixed cells is averaged arithmetically whatever the mean of the viscosity; with the harmonic mean it
  is more than the work of the stress.
* C125: the top rock cell weighs as much as the part between its *centre* and the surface, so half a row of rock is missing
  from every column: the pressure of a model at rest is short by the weight of half a row at every depth, and by half in the top cell.
  Cells below a hill top that was cut off by the lateral corrections, and all active vertices below the surface, get more than their full
  density.  `rho0_n` of the top cell is reduced as well, although it comes from markers whose density was already reduced.
* C126: `SurfaceVelocity` reads the vertical velocity two rows below the first air node (`c2-2*nxvz`), the horizontal one a single row
  below.
* C127: `type != 30 || type != 31` is always true.
* C129: at the end of a step `UpdateDensity` runs without `SurfaceDensityCorrection`, while `rho0_n` still carries the correction, so the
  markers of the top cells gain density they do not have (limit: density divided by the filled fraction).
* C130: `MassSourceTerm` tests `BCp.type[0]` instead of `BCp.type[c0]`, and ignores the density law.
* C131: `comp_cells` is set but never cleared.
* C134: `UpdateParticleGrainSize` overwrites the marker grain size instead of adding the increment.
* C135: `ViscosityConciseAniso` divides the heat by the viscosity along the layers without the anisotropy factor, so shear along layers
  heats up to `ani` times too much (used by the heat equation, ThermalRoutines.c:160).  The reported `eIIel` is the square of the elastic rate
  (AnisotropyRoutines.c:315).  A zero strain rate without stress ends the program (no floor as in the isotropic routine), so an
  anisotropic model at rest stops at initialisation.  `min_eta`, `max_eta` are ignored.
* C136: with `density_variations = 1` the anisotropic routine leaves `rho = 0`; the continuity residual takes its logarithm.
* C137: with the geometric mean the test for a positive factor sees the logarithm: factors all equal to one end the program.
* C138: without elasticity compressibility and expansivity are set once; after a restart they are zero.
* C139: where a rock with evolving grain size yields, the grain size belongs to the visco-elastic trial stress.  Without dislocation creep the
  formula divides by zero (not modelled).
* C140: diffusion law 1 (`ReadDataLinear`) assigns the parameters of dislocation creep.  Grain size laws 11 and 12 set `cpzm = Gpzm = Lpzm = 0`,
  so `Bg = 0/0` and the grain size is not a number.
* C141: `ReadBin` and the reader of the quartz-coesite table ignore the number of values `fread` returns: a short file leaves uninitialised memory (or
  zeros) as densities.  `phase_diagram` is only compared with -1; 10 or more indexes past the arrays.  Below the lower limit of a table the look-up
  uses the value a hundredth of a step inside, so density falls when the pressure rises across the limit.  The file handle of the first `fopen` is not
  closed.
* C142: solver number 1 measures its tolerance against the residual of its start vector, the present flow, although the unknown is a correction: a
  balanced flow is changed. A first direction without progress makes the next norm zero, which is divided by. Nothing is reported when the thousand
  iterations run out.
* C143: after twenty iterations the compressible direct solver decides about the flow of the iteration before.
* C144: `BuildInitialSolutions` fills the vertical velocities from `u_in` (line 169), outside it for tall grids. Solver numbers other than -1, 1, 2
  (0 is replaced by 2) call no solver and leave the flow as it is.
* C145: the free-surface stabilisation is kept whenever the diagonal stays non-negative (`StokesAssemblyDecoupled.c:137-143, 644-650`); under an unstable
  layering the velocity block then need not be positive, and the Cholesky factorisation has no guarantee.
* C146: `CellFlagging` turns a rock cell into air if both lateral neighbours are the first air cell of their column (`FreeSurface.c:567-591`), also when
  there is more rock above it. Below a peak that rises two cells above both neighbours the top cell is cut off; it keeps its own equations, nothing
  holds it, and the Stokes matrix is singular (without stabilisation).
* C147: the line search evaluates the residual with the viscosity tensor of the pass before (`RheologicalOperators` is not called, StokesRoutines.c:650-655)
  and scales with the old diagonal; only stabilised or scaled rows read them. With density_variations the trial takes the density at the corrected
  pressure (`final_update = 1`), the pass at the pressure of the solution.
* C148: the restart in tension (RheologyDensity.c:664-671) takes the pressure back but leaves `divp`, so `div_u_pl` is not part of any balance.
* C150: `Wdiss` of a cell is computed from the mean of the shear rates of its four corners (RheologyDensity.c:1735-1742, 771), while the momentum rows use the shear stress at the corners; shear of alternating sign does work but makes no heat.
* C167: `PureShearALE` moves the sides and the grid before the markers (Main_DOODZ.c:1045-1060); markers between the old and the new wall are switched
  off, and the others see velocities attached to moved nodes.
* C168: the deformation gradient takes one Euler step with the gradient on the moved grid, the markers four Runge-Kutta stages.
* C169: the velocities stay attached to the nodes through all substeps; the rock reaches another place for another number of substeps.
* C171: the sides move by one Euler step, so the box loses the square of the strain of each step in area.
