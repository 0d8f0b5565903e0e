#!/usr/bin/env python3
"""Writes /verif/properties.jsonl (one JSON object per line)."""
import json, os
P=[]
def p(id,title,statement,quant,why,anchors):
    P.append(dict(id=id,title=title,statement=statement,quantifier=quant,why_tests_cant=why,anchors=anchors))

p("C01","Stokes equation numbering is a bijection",
 "Numbering the Stokes unknowns gives every solved velocity and pressure node exactly one equation number, two different solved nodes never share a number, the numbers used are exactly 0..neq-1, all velocity equations come before all pressure equations, unsolved nodes get no number, and an east periodic Vx node gets the number of its west twin.",
 "every grid size and every assignment of boundary-condition tags to the nodes",
 "The space of tag maps is exponential in the grid size; a unit test fixes one map, while the free surface produces a new map at every time step.",
 ["MDLIB/StokesRoutines.c:EvalNumberOfEquations"])
p("C02","Solution increments reach exactly the solved nodes",
 "Adding a solver increment to the velocity and pressure fields changes each solved node by alpha times the increment stored under that node's equation number, sets each prescribed node to its boundary value, and packing the fields back into a vector recovers the increment; no increment entry is used for two different physical unknowns and none is dropped.",
 "every grid, tag map, increment vector and step length",
 "Depends on the agreement of three separately coded tag filters for every tag map.",
 ["MDLIB/StokesRoutines.c:ExtractSolutions2","MDLIB/StokesRoutines.c:InitialiseSolutionVector","MDLIB/SparseTools.c:BackToSolutionVector"])
p("C03","Boundary values are enforced on the ghosted velocity fields",
 "After applying boundary conditions, the mean of a no-slip ghost node and its inner neighbour is the prescribed boundary velocity, a free-slip ghost equals its inner neighbour, a prescribed node holds its value, periodic ghost nodes equal the wrapped interior nodes; interior nodes are unchanged and applying the conditions twice is the same as once.",
 "every grid of at least 3x3 nodes, every velocity field and every tag/value map in which tags sit on the sides they are meant for",
 "Corner nodes couple two sides; which of the six ordered loops wins is only settled for all maps by a proof.",
 ["MDLIB/StokesRoutines.c:ApplyBC"])
p("C04","Thread domain decomposition is a partition",
 "For any number of nodes and any positive number of threads, the per-thread index ranges are consecutive, pairwise disjoint and cover every node exactly once.",
 "every N >= 0 and every thread count >= 1 (including more threads than nodes)",
 "Two unbounded integers; rounding at N mod threads.",
 ["MDLIB/StokesAssemblyDecoupled.c:DomainDecompositionDecoupled"])
p("C05","Assembled matrix does not depend on the number of threads",
 "The merged sparse matrix (row pointers, column indices, values) produced by the threaded assembly is the same for every number of threads and every interleaving of the threads, and equals the matrix assembled by a single thread.",
 "every grid, tag map, stencil and thread count",
 "Thread schedules and thread counts cannot be enumerated by tests; the machine running the tests has one core count.",
 ["MDLIB/StokesAssemblyDecoupled.c:MergeParallelMatrix","MDLIB/StokesAssemblyDecoupled.c:MergeParallelMatrixDecoupled","MDLIB/StokesAssemblyDecoupled.c:BuildStokesOperatorDecoupled"])
p("C06","Per-thread assembly buffers never overflow",
 "Assembly of the momentum and continuity blocks never writes beyond the memory reserved for a thread's coefficients.",
 "every grid size and thread count",
 "Overflow needs a small grid on a machine with many threads; silent heap corruption is not visible to a unit test.",
 ["MDLIB/StokesAssemblyDecoupled.c:AllocateTempMatArraysDecoupled","MDLIB/StokesAssemblyDecoupled.c:DomainDecompositionDecoupled","MDLIB/StokesAssemblyDecoupled.c:BuildStokesOperatorDecoupled"])
p("C07","Eliminating prescribed velocities preserves the discrete equations",
 "For every vector of unknowns, matrix row times unknowns minus right-hand side equals the full finite-difference stencil evaluated on the field whose prescribed nodes carry their boundary values.",
 "every stencil (any list of neighbours and coefficients), tag map, boundary value and vector",
 "Universally quantified over fields and coefficients.",
 ["MDLIB/StokesAssemblyDecoupled.c:AddCoeff3"])
p("C08","Momentum rows are the discretised stress balance",
 "On a regular interior node the assembled x- (z-) momentum coefficients applied to any velocity/pressure field give minus the divergence of the deviatoric stress plus the pressure gradient computed by the strain-rate and stress routines, including the compressible and out-of-plane terms; hence at the same linearisation the matrix and the residual agree.",
 "every velocity and pressure field, every viscosity field, every mesh spacing, both compressibility and both out-of-plane switches",
 "An algebraic identity over real-valued fields; matching a few numbers does not exclude a wrong coefficient that cancels on the sample.",
 ["MDLIB/StokesAssemblyDecoupled.c:Xmomentum_InnerNodesDecoupled","MDLIB/StokesAssemblyDecoupled.c:Zmomentum_InnerNodesDecoupled","MDLIB/RheologyDensity.c:StrainRateComponents"])
p("C09","Rigid motions cause no viscous force",
 "Uniform translation and rigid rotation of the velocity field produce zero viscous force in the momentum rows, zero strain rate and zero divergence.",
 "every viscosity distribution, spacing and rigid motion",
 "Quantified over viscosity fields and motions.",
 ["MDLIB/StokesAssemblyDecoupled.c:Xmomentum_InnerNodesDecoupled","MDLIB/StokesAssemblyDecoupled.c:Zmomentum_InnerNodesDecoupled","MDLIB/RheologyDensity.c:StrainRateComponents"])
p("C10","The Stokes block matrix is symmetric",
 "For interior couplings, the coefficient linking velocity unknown a to equation b equals the one linking b to a, and the pressure-gradient block is minus the transpose of the divergence block (in-plane deformation).",
 "every viscosity field and mesh spacing, every pair of neighbouring unknowns",
 "Symmetry must hold for all coefficient fields; Cholesky is silently wrong otherwise.",
 ["MDLIB/StokesAssemblyDecoupled.c:Xmomentum_InnerNodesDecoupled","MDLIB/StokesAssemblyDecoupled.c:Zmomentum_InnerNodesDecoupled","MDLIB/StokesAssemblyDecoupled.c:Continuity_InnerNodesDecoupled"])
p("C11","Diagonal scaling does not change the solution",
 "Solving the scaled block system and multiplying the result back by the scaling gives a solution of the unscaled system and conversely; symmetry of the velocity block is preserved.",
 "every block system, every nonzero scaling vector",
 "Quantified over matrices and vectors.",
 ["MDLIB/StokesRoutines.c:ScaleMatrix","MDLIB/StokesRoutines.c:ScaleVelocitiesRHSBack","MDLIB/StokesRoutines.c:ExtractDiagonalScale"])
p("C12","Sparse index utilities are exact",
 "Expanding compressed row pointers to triplets labels every stored coefficient with its own row, and permuting a vector and un-permuting it with the same permutation gives the vector back.",
 "every compressed-row structure (including empty rows) and every permutation",
 "Unbounded structures with empty rows at the ends.",
 ["MDLIB/SparseTools.c:DecompressCSRtoTriplets","MDLIB/SparseTools.c:PermuteVector","MDLIB/SparseTools.c:PermuteInverseVector"])
p("C13","Time step stays within the user's bounds",
 "The time step chosen before each step satisfies dt_min <= dt <= dt_max (given dt_min <= dt_max) unless the step is declared constant, in which case it is exactly the start value; it grows by at most the documented factor (1.25 elastic, 2 viscous) over the previous one whenever anything moves, unless a lower bound forces it; no marker can cross more than the Courant fraction of the smallest cell with the chosen step unless dt_min forces it.",
 "every velocity field, model switches, previous step",
 "Depends on max over whole velocity fields and on the order of six clamps.",
 ["MDLIB/AdvectionRoutines.c:EvaluateCourantCriterion"])
p("C14","Advection sub-stepping covers the solved time step exactly",
 "However advection is split, the sub-steps add up exactly to the time step used by the solver, each sub-step is at most the Courant-limited step divided by 0.95, and the solver's time step is restored afterwards.",
 "every solver step and every Courant-limited step > 0",
 "Real-valued quantifier with a ceiling.",
 ["MDLIB/Main_DOODZ.c:RunMDOODZ"])
p("C15","Reported model time equals the accumulated advected time",
 "After any number of steps, model time minus start time equals the sum of the time steps over which markers were advected, for every outcome of the nonlinear solver in every step.",
 "every history of steps and solver outcomes (converged, stagnated and retried with a smaller step)",
 "Only some histories (stagnation in safe mode) reveal a mismatch.",
 ["MDLIB/Main_DOODZ.c:RunMDOODZ"])
p("C16","The nonlinear iteration terminates and reports honestly",
 "The nonlinear loop performs at most (nit_max+1)*max_num_stag residual evaluations; if it is left as converged then each of the three residuals meets its absolute or relative tolerance; in safe mode the run never silently continues from an iterate that exhausted nit_max without meeting the absolute tolerances.",
 "every sequence of residuals returned by the solver, all tolerances and limits",
 "Quantified over infinite residual histories with restarts of the counter.",
 ["MDLIB/Main_DOODZ.c:RunMDOODZ"])
p("C17","Line search never accepts a worse step and restores the fields",
 "The step length returned by the line search is the trial with the smallest residual norm; either that residual is below the starting one or stagnation is signalled with step zero (when residual growth is not allowed), and velocity and pressure fields are those from before the search.",
 "every residual function of the step length, every search range",
 "Quantified over functions.",
 ["MDLIB/StokesRoutines.c:LineSearchDecoupled"])
p("C18","Markers stay in the box",
 "After the outflow test every still-active marker lies inside the model box (with periodic sides: if it was displaced by at most one box width); with periodic sides a marker that left by less than one box width re-enters shifted by exactly one box width and stays active.",
 "every marker position, every box, both periodicity settings",
 "Real-valued positions, both sides, corners.",
 ["MDLIB/AdvectionRoutines.c:isout","MDLIB/AdvectionRoutines.c:isoutPart"])
p("C19","Marker advection is exact for simple flows and ignores dead markers",
 "With the same velocity at all four stages the Runge-Kutta update moves a marker by exactly velocity times dt; for a linear velocity field it reproduces the Taylor series of the flow through fourth order; deactivated markers never move (periodic wrapping aside); time reversal of a uniform flow is exact.",
 "every marker set, velocity, time step",
 "Quantified over flows and real steps.",
 ["MDLIB/AdvectionRoutines.c:RogerGuntherII"])
p("C20","Grid-to-marker interpolation is a convex combination of the enclosing nodes",
 "Interpolating a nodal field to any marker inside the grid reads only existing nodes, returns a value between the smallest and largest of the four nodes used, reproduces constant and linear fields exactly, and is continuous across cell borders.",
 "every marker position in the closed domain, every field",
 "Continuous positions incl. exact cell borders and domain edges.",
 ["MDLIB/ParticleRoutines.c:Interp_Grid2P","MDLIB/ParticleRoutines.c:V2P","MDLIB/ParticleRoutines.c:Vertices2Particle"])
p("C21","Marker-to-grid averages are bounded and conservative of constants",
 "The value interpolated from markers to a node that received weight lies between the smallest and largest contributing marker value for arithmetic, harmonic and geometric averaging, equals the constant if all markers carry the same value; nodes that received no weight or are air are left unchanged (except that on periodic vertex fields the two edge columns are replaced by their mean).",
 "every marker cloud, field, averaging mode, node tag map",
 "Unbounded clouds and real values.",
 ["MDLIB/ParticleRoutines.c:P2Mastah"])
p("C22","Phase fractions are a partition of unity",
 "At every rock node that received weight the phase fractions are in [0,1] and add up to one, and a phase has a positive fraction exactly when a marker of that phase contributes.",
 "every marker cloud and number of phases",
 "Quantified over clouds.",
 ["MDLIB/ParticleRoutines.c:P2Mastah"])
p("C23","Threaded reductions do not depend on schedule",
 "Counting markers, summing marker contributions per node and finding field extrema give the same result for every number of threads, every assignment of loop iterations to threads and every merge order (exact arithmetic).",
 "every partition of the iterations and every merge order",
 "Schedules are not enumerable by tests.",
 ["MDLIB/ParticleRoutines.c:P2Mastah","MDLIB/ParticleRoutines.c:CountPartCell","MDLIB/MiscFunctions.c:MinMaxArray","MDLIB/SparseTools.c:DotProduct"])
p("C24","Reported field extrema ignore air nodes",
 "The minimum and maximum printed for a tagged field are extrema over the non-air nodes only.",
 "every field and tag map with at least one non-air node",
 "Depends on whether node 0 is air.",
 ["MDLIB/MiscFunctions.c:MinMaxArrayTag","MDLIB/MiscFunctions.c:MinMaxArrayPart"])
p("C25","Marker reseeding respects capacity and never overwrites a live marker",
 "When reseeding, every new marker takes a slot that was dead or unused, no two new markers share a slot, the marker count never exceeds the allocated capacity (the run stops instead), existing live markers keep their slot and properties, and every new marker copies the phase of a live marker from the neighbourhood.",
 "every marker population, free-slot list and capacity",
 "History-dependent slot recycling over unbounded populations.",
 ["MDLIB/ParticleRoutines.c:CountPartCell"])
p("C26","Reseeded markers are placed below the free surface and inside the box",
 "A marker created by reseeding lies inside the model box and, when a free surface is used, not above it.",
 "every grid, surface shape and marker population",
 "The faulty case needs a surface crossing a depleted cell.",
 ["MDLIB/ParticleRoutines.c:CountPartCell"])
p("C27","Inflow markers enter inside the domain",
 "A marker injected at a side boundary lies within the half cell adjacent to that boundary, copies from exactly one tagged marker, and each tagged marker triggers at most one injection; the population never exceeds capacity.",
 "every marker population and capacity",
 "Population-dependent slot handling; capacity exhaustion.",
 ["MDLIB/ParticleRoutines.c:ParticleInflowCheck"])
p("C28","Initial marker layout fills every cell evenly",
 "Without free surface the initial layout creates exactly Nx_part*Nz_part markers in each cell, all strictly inside their own cell, so the total equals the announced marker number; with a free surface, only markers below the surface are kept.",
 "every grid size and markers-per-cell setting",
 "Unbounded grid sizes.",
 ["MDLIB/ParticleRoutines.c:PutPartInBox"])
p("C29","Phase transmutation applies to every live marker meeting the criterion",
 "After transmutation every live marker whose phase transforms and whose temperature passes the threshold carries the target phase, all others keep theirs, and no property of the material table is looked up with an invalid phase.",
 "every marker population and temperature field",
 "The defect touches only the last marker and dead markers.",
 ["MDLIB/ParticleRoutines.c:TransmutateMarkers"])
p("C30","The piecewise-linear surface passes through the nodal heights and is continuous",
 "The height evaluated from the per-cell line coefficients equals the nodal height at both ends of each cell, is continuous across cells, and stays between the two nodal heights inside a cell.",
 "every topography and grid",
 "Real-valued quantifiers.",
 ["MDLIB/FreeSurface.c:MarkerChainPolyFit"])
p("C31","No live marker remains above the surface after clean-up",
 "After surface clean-up every live marker is at or below the surface height at its position, markers at or below the surface are untouched, and dead markers stay dead.",
 "every marker population and surface",
 "Unbounded populations and real positions.",
 ["MDLIB/FreeSurface.c:CleanUpSurfaceParticles"])
p("C32","Surface chain re-meshing restores coverage within capacity",
 "After re-meshing, every fine surface column that was depleted contains at least two more usable surface markers placed inside it, the chain never exceeds its capacity, and recycled markers are active again.",
 "every surface chain and capacity",
 "Recycling happens only after markers left the box.",
 ["MDLIB/FreeSurface.c:RemeshMarkerChain"])
p("C33","Sediment markers lie between the old and the new surface",
 "Every marker added by sedimentation has a height strictly between the old and the new surface at its position, carries the sediment phase selected by model time, starts undeformed, and the marker array bound is respected.",
 "every pair of surfaces, every time",
 "Real-valued surfaces; deformation gradient only observable later.",
 ["MDLIB/FreeSurface.c:AddPartSed"])
p("C34","Surface diffusion applies the requested diffusion time",
 "The surface-process diffusion advances topography over the whole time step with the configured diffusivity, keeps end points and constants and never creates new extrema.",
 "every topography and time step",
 "Multi-substep accumulation.",
 ["MDLIB/FreeSurface.c:DiffuseAlongTopography"])
p("C35","Implicit heat equation matrix is symmetric and an M-matrix",
 "The assembled heat matrix is symmetric for interior couplings, has non-positive off-diagonal and positive diagonal entries, and is strictly diagonally dominant; hence the discrete temperature is unique.",
 "every grid, air map, conductivity, density, heat capacity > 0 and dt > 0",
 "Universally quantified over coefficient fields.",
 ["MDLIB/ThermalRoutines.c:EnergyDirectSolve"])
p("C36","Heat solver obeys the discrete maximum principle",
 "Without heat sources, the new temperature lies between the minimum and the maximum of the old temperatures and prescribed boundary temperatures, and a uniform temperature is a steady state.",
 "every grid, conductivity field, old temperature and boundary values",
 "Universally quantified over fields.",
 ["MDLIB/ThermalRoutines.c:EnergyDirectSolve"])
p("C37","Insulated heat solver conserves energy",
 "With zero-flux boundaries and no sources, the sum over cells of rho*Cp*T is unchanged by a thermal step.",
 "every grid, coefficient field and dt",
 "Summation by parts over arbitrary grids.",
 ["MDLIB/ThermalRoutines.c:EnergyDirectSolve"])
p("C38","Breakpoint write/read is a lossless round trip",
 "Loading a breakpoint written by the same build and switches restores every stored field to the value it had when the file was written.",
 "every model state and every combination of switches",
 "Dozens of fields times switch combinations; two fields are restored into the wrong array.",
 ["MDLIB/InputOutput.c:MakeBreakpointParticles","MDLIB/InputOutput.c:LoadBreakpointParticles"])
p("C39","Writing a breakpoint does not disturb the running model",
 "After a breakpoint is written all in-memory fields have the values they had before (exact arithmetic).",
 "every model state and non-zero scaling",
 "Scale/unscale pairs for every field.",
 ["MDLIB/InputOutput.c:MakeBreakpointParticles"])
p("C40","A crash never loses all breakpoints",
 "With breakpoint rotation enabled, at every crash point after the first completed breakpoint the disk holds a complete breakpoint of one of the last two output steps under its own label; only the two or three newest files are kept, and any file labelled with a step holds the state of that step.",
 "every number of steps, every output interval, every crash point inside the rename/write sequence",
 "Crash points between a rename and the end of a long write cannot be enumerated by unit tests.",
 ["MDLIB/InputOutput.c:DeletePreviousBreakpoint","MDLIB/InputOutput.c:MakeBreakpointParticles","MDLIB/Main_DOODZ.c:RunMDOODZ"])
p("C41","Restarting continues exactly where the breakpoint was taken",
 "Running to step n, then restarting from that breakpoint, executes the remaining steps n+1..Nt, each exactly once and in order, and yields the same sequence of states as an uninterrupted run (for the part of the state stored in the breakpoint).",
 "every Nt, every breakpoint step, every deterministic step function",
 "All histories of interruptions.",
 ["MDLIB/Main_DOODZ.c:RunMDOODZ","MDLIB/InputOutput.c:ReadInputFile"])
p("C42","Numeric input parameters are found by exact name, first occurrence wins, otherwise the default",
 "For every input file made of 'key = value' lines terminated by newline, reading a numeric parameter returns the value on the first line with exactly that key, or the default when there is none; the result does not depend on previously read parameters.",
 "every text file, key and default",
 "Arbitrary file contents: prefix keys, comments, missing '=', last line without newline.",
 ["MDLIB/InputOutput.c:ReadInt2","MDLIB/InputOutput.c:ReadDou2"])
p("C43","Material parameters are taken from their own phase block",
 "Reading a material parameter for phase i returns the value from the block that starts at 'ID = i' and ends at the next ID line, never from another phase's block, and the default if the block lacks it.",
 "every input file and phase id",
 "Arbitrary ordering of blocks and keys.",
 ["MDLIB/InputOutput.c:ReadMatProps"])
p("C44","Text parameters are found regardless of order",
 "Reading a text parameter returns the value on the line with that key, independent of which parameters were read before and of keys that merely start with the same letters.",
 "every input file and reading order",
 "Order dependence only shows for particular files.",
 ["MDLIB/InputOutput.c:ReadChar"])
p("C45","Characteristic scales are mutually consistent",
 "The derived scales satisfy the dimensional identities used throughout the code (stress = density*gravity*length, force = stress*length^2, energy = stress*length^3, diffusivity = length^2/time, power density ...), so scaling and unscaling any quantity is exact and the governing equations keep their form.",
 "every positive choice of the four basic scales",
 "Real-valued identities.",
 ["MDLIB/InputOutput.c:ScaleMe"])
p("C46","Phase validation rejects every out-of-range phase",
 "A marker phase returned by a user callback is accepted only if it indexes an existing material.",
 "every phase number and number of phases",
 "Off-by-one at one value.",
 ["MDLIB/Setup.c:ValidatePhase"])
p("C47","Boundary position classification is total and consistent",
 "Every velocity and pressure node is handed to the boundary callbacks with the position of the side/corner it is on; the shipped pure-shear and simple-shear templates give interior nodes the interior tag, so that set-up never aborts, and every boundary node gets a boundary tag.",
 "every grid size",
 "All grid sizes and all nodes.",
 ["MDLIB/Setup.c:SetBCs","MDLIB/Setup.c:SetPureShearBCVx","MDLIB/Setup.c:SetPureShearBCVz","MDLIB/Setup.c:SetSimpleShearBCVx","MDLIB/Setup.c:SetSimpleShearBCVz"])
p("C48","Pure-shear template conserves area",
 "With the pure-shear template the net volume flux through the four sides is zero and the box deformed with these velocities keeps its area to first order in dt.",
 "every box and background strain rate",
 "Real-valued identity.",
 ["MDLIB/Setup.c:SetPureShearBCVx","MDLIB/Setup.c:SetPureShearBCVz","MDLIB/AdvectionRoutines.c:PureShearALE"])
p("C49","Boundary-flux balancing makes the side flux vanish",
 "After balancing, the discrete sum of the prescribed normal velocities over a side is zero; the smoothing pass creates no new extrema and fixes the end values.",
 "every side velocity profile",
 "The defect needs a zero at the top row.",
 ["MDLIB/Setup.c:SetBCs"])
p("C50","Geometric predicates contain their own centre and are invariant under rotation about it",
 "A point is inside a rotated ellipse/rectangle exactly when the point rotated back about the shape's centre is inside the unrotated shape; in particular the centre is always inside.",
 "every centre, angle, axes, point",
 "Angle zero or centre zero hides the defect.",
 ["MDLIB/Setup.c:IsEllipseCoordinates","MDLIB/Setup.c:IsRectangleCoordinates"])
p("C51","Strain softening stays between initial and final strength",
 "The softened friction, dilation and cohesion lie between their initial and final values, are continuous and monotone in accumulated strain, equal the initial value below the onset strain and the final value above the end strain.",
 "every strain and every softening window",
 "Only windows with positive onset strain reveal the defect.",
 ["MDLIB/RheologyDensity.c:Softening"])
p("C52","Plastic return mapping ends on the yield surface",
 "When the trial stress exceeds the yield stress, the corrected stress satisfies the Drucker-Prager condition at the corrected pressure including viscoplastic overstress; otherwise stress is unchanged; the corrected stress never exceeds the trial stress.",
 "every trial stress, pressure, strength and viscosity",
 "Real-valued, with pressure feedback only when dilation is active.",
 ["MDLIB/RheologyDensity.c:ViscosityConcise","MDLIB/AnisotropyRoutines.c:ViscosityConciseAniso"])
p("C53","Phase-averaged viscosity is bounded and ordered",
 "For volume fractions adding to one, the mixed viscosity lies between the smallest and largest phase viscosity under each averaging rule, harmonic <= geometric <= arithmetic, and the result of the viscosity routine is within the user's viscosity cut-offs.",
 "every number of phases, fractions and positive viscosities",
 "Inequality over all mixtures.",
 ["MDLIB/RheologyDensity.c:NonNewtonianViscosityGrid","MDLIB/RheologyDensity.c:ViscosityConcise"])
p("C54","Anisotropic stress update is frame-consistent",
 "Rotating strain rate into the layer frame, applying the layered viscosity and rotating back equals the closed-form anisotropic operator used in the assembly; with anisotropy factor one it is the isotropic law for every orientation; trace and invariants are preserved by the rotation; the operator is symmetric and dissipative.",
 "every orientation, anisotropy factor >= 1, strain rate",
 "Trigonometric identity over all angles.",
 ["MDLIB/AnisotropyRoutines.c:ViscosityConciseAniso","MDLIB/AnisotropyRoutines.c:NonNewtonianViscosityGridAniso","MDLIB/StokesRoutines.c:RheologicalOperators"])
p("C55","Effective visco-elastic strain rate inverts the anisotropic elastic law",
 "The elastic contribution added to the strain rate is exactly the one whose anisotropic stress is the old stress divided by the elastic viscosity; for factor one it reduces to old stress / (2 eta_el).",
 "every orientation parameters, factor, stress",
 "Symbolic 3x3 inverse over all parameters.",
 ["MDLIB/RheologyDensity.c:EffectiveStrainRate"])
p("C56","Melt fraction is physical",
 "The melt fraction is always in [0,1], zero for non-melting phases, and for the linearised melting law is non-decreasing in temperature; at equilibrium kinetics it is 0 at the solidus and 1 at the liquidus.",
 "every pressure, temperature, kinetics and melting model",
 "Real-valued with clamps and model-dependent solidus.",
 ["MDLIB/MeltingRoutines.c:PartialMelting"])
p("C57","Table look-ups never read outside the table",
 "Density / phase-diagram look-up reads only table entries for every pressure and temperature, and returns a value between the entries used.",
 "every (T,P) including values exactly on or outside the table limits",
 "Exact equality with the lower table limit is a measure-zero input.",
 ["MDLIB/RheologyDensity.c:ItpRho1D","MDLIB/RheologyDensity.c:Interpolate2Ddata"])
p("C58","Air/rock flags of the staggered grids are mutually consistent",
 "After flagging, every solved pressure cell has its four velocity faces in rock, no velocity node is in rock unless an adjacent cell is, and cells entirely above the surface are air.",
 "every topography and grid",
 "Interplay of several correction passes.",
 ["MDLIB/FreeSurface.c:CellFlagging"])
p("C59","Grid coordinates and index maps are mutually inverse",
 "The flattened index of each grid family and the stored column/row of that index are inverse to each other, coordinates are equally spaced and end exactly on the box limits, centres lie midway.",
 "every grid size and box",
 "All sizes.",
 ["MDLIB/GridRoutines.c:GridIndices","MDLIB/GridRoutines.c:SetGridCoordinates"])
p("C60","Centre-to-vertex averaging is bounded and preserves constants in rock",
 "Averaging a cell field to vertices (with extrapolated or periodic ghost cells) gives values between the extrema of the contributing cells where all four are rock, preserves constants there, and gives zero at air vertices.",
 "every field, grid, air map",
 "All fields.",
 ["MDLIB/GridRoutines.c:InterpCentroidsToVerticesDouble","MDLIB/GridRoutines.c:ExpandCentroidArray"])
p("C61","Lithostatic pressure increases downward and balances the weight",
 "Without a free surface, the pressure difference between vertically adjacent cells equals mean density times gravity times dz, so pressure never decreases downward for non-negative density.",
 "every density field",
 "All fields.",
 ["MDLIB/GridRoutines.c:ComputeLithostaticPressure"])
p("C62","Contradictory input switches are resolved to a consistent set",
 "After reading the input file the switches satisfy the solver's requirements: periodicity matches the shear style, anisotropy implies finite strain tracking, Newton implies line search and a direct-iterative solver, and the marker array can hold all initial markers.",
 "every combination of user switches",
 "Combinatorial.",
 ["MDLIB/InputOutput.c:ReadInputFile"])
p("C63","Surface topography has zero mean after correction",
 "After removing the mean, the average height of the surface markers is zero.",
 "every chain of surface markers",
 "Contribution of never-initialised slots.",
 ["MDLIB/FreeSurface.c:KeepZeroMeanTopo"])
p("C64","Surface heights interpolated to the grid stay within the marker heights",
 "Every grid surface height obtained from surface markers lies between the lowest and the highest marker height when each column received a marker.",
 "every chain",
 "All chains; empty columns.",
 ["MDLIB/FreeSurface.c:InterpTopoPart2Grid"])
p("C65","First-order upwind advection is monotone",
 "Upwind field advection creates no new extrema under the CFL condition and advances the field over the requested time step.",
 "every field, velocity and dt under CFL",
 "All fields; the number of sub-steps.",
 ["MDLIB/AdvectionRoutines.c:FirstOrderUpwindAdvection"])
p("C66","Initial time step respects the Maxwell time",
 "For an elastic model with adaptive stepping the initial time step never exceeds the smallest Maxwell time (viscosity over shear modulus) of any rock cell, and it is only ever reduced, never increased, by this rule.",
 "every viscosity and shear-modulus field, every placement of air cells",
 "Minimum over whole fields with excluded cells.",
 ["MDLIB/AdvectionRoutines.c:DefineInitialTimestep"])
p("C67","A marker never crosses more than the Courant fraction of a cell per sub-step",
 "With the automatically chosen time step, in every advection sub-step each active marker moves by at most Courant/0.95 times the smallest cell side in each direction (up to one periodic wrap) and ends up inside the box or deactivated, provided something moves and the minimum time step is not binding.",
 "every velocity field, marker position, grid and solver time step",
 "Chains time-step selection, sub-stepping, interpolation and four Runge-Kutta stages over continuous positions.",
 ["MDLIB/AdvectionRoutines.c:EvaluateCourantCriterion","MDLIB/AdvectionRoutines.c:RogerGuntherII","MDLIB/ParticleRoutines.c:V2P","MDLIB/Main_DOODZ.c:RunMDOODZ"])
p("C68","Periodic models treat all columns alike",
 "With periodic sides, shifting every marker east by one cell (wrapping around) shifts the field interpolated from markers by one column.",
 "every marker set, marker value, stencil, averaging rule and thread distribution",
 "A symmetry over all marker configurations.",
 ["MDLIB/ParticleRoutines.c:P2Mastah"])
p("C69","The recorded initial surface never lies above the current surface",
 "After the correction of the chain that tracks the initial surface, each of its markers inside the box has the smaller of its own height and the current surface height at its position, and keeps its horizontal position.",
 "every surface, every chain position",
 "All surfaces and continuous positions.",
 ["MDLIB/FreeSurface.c:CorrectTopoIni"])
p("C70","Chemical diffusion keeps composition in range and conserves it",
 "A chemical diffusion step leaves the composition of the rock cells between the bounds of the old composition and of prescribed boundary values, and with closed sides leaves its sum unchanged.",
 "every grid, air map, diffusivity field, old composition and time step",
 "Universally quantified over fields.",
 ["MDLIB/ChemicalRoutines.c:ChemicalDirectSolve"])
p("C71","Every stored matrix coefficient sits in the column of an equation",
 "On every legal mesh each coefficient stored for a solved node refers to an existing node and sits in a column that is an equation number of its block: velocity equations for the momentum and continuity blocks, pressure equations for the gradient block; ghost rows and ghost columns store nothing.",
 "every grid size, tag map (free surface, periodic sides, stress boundaries), numbering junk and coefficient field",
 "Index arithmetic with periodic wrap and air, for all sizes; an out-of-range column corrupts memory in the solver.",
 ["MDLIB/StokesAssemblyDecoupled.c:Xmomentum_InnerNodesDecoupled","MDLIB/StokesAssemblyDecoupled.c:Zmomentum_InnerNodesDecoupled","MDLIB/StokesAssemblyDecoupled.c:Continuity_InnerNodesDecoupled","MDLIB/StokesRoutines.c:EvalNumberOfEquations"])
p("C72","Initial markers are exactly what the callbacks request",
"After set-up there is one marker per initial position, in order; each carries the phase (adjusted to temperature if requested), dual phase, temperature, velocity, density and scalar fields that the callbacks return for its own position, or the documented default where a callback is missing; nothing depends on other markers.",
"every set of callbacks and every list of marker positions",
"Callbacks are arbitrary user functions and any subset may be missing.",
["MDLIB/Setup.c:SetParticles","MDLIB/Setup.c:ValidatePhase"])
p("C73","Default input file name is derived from the program name within its buffer",
"The default input file name is the program's file name without directories and extension followed by .txt, and is written inside the memory allocated for it.",
"every file name",
"Writing past a small heap block usually goes unnoticed.",
["MDLIB/Setup.c:DefaultTextFilename"])
p("C74","Material layering directors stay unit vectors and follow material planes",
"A marker's director is a unit vector initially and after every step; under a rigid rotation rate it turns with the material, and in general it stays normal to the material line it was normal to, to first order in the time step.",
"every initial angle, velocity gradient, time step and number of steps",
"Continuous inputs and histories of arbitrary length.",
["MDLIB/RheologyParticles.c:UpdateParticleStress","MDLIB/AnisotropyRoutines.c:InitialiseDirectorVector"])
p("C75","Creep mechanisms share the strain rate",
"When the local iterations stop, the strain rates of all active mechanisms (elastic, dislocation, diffusion, Peierls, grain boundary sliding, constant viscosity) add up to the imposed strain rate within the tolerance, each follows its own flow law at the common stress, and the effective viscosity lies within the bounds of the single mechanisms.",
"every combination of mechanisms, material constants, strain rate and number of iterations",
"Continuous inputs; the iteration count is data dependent.",
["MDLIB/RheologyDensity.c:ViscosityConcise"])
p("C76","Latent heat never lowers the heat capacity and every rock cell has one",
"The effective heat capacity of every cell below the surface is at least the fraction-weighted heat capacity of its phases, whatever other cells contain.",
"every mixture, melting model, pressure, temperature and map of air cells",
"Universally quantified over fields; depends on which cell is air.",
["MDLIB/MeltingRoutines.c:UpdateAlphaCp"])
p("C77","Accumulated strain of a marker never decreases",
"As long as all strain rate invariants are non-negative, no strain measure of any marker inside the box ever decreases, the total grows by at least the sum of the single mechanisms, and in a homogeneous flow every marker gains exactly rate times time step.",
"every field of strain rates, marker position, map of air cells and number of steps",
"Continuous positions and histories; the half cells along the sides extrapolate.",
["MDLIB/RheologyParticles.c:AccumulatedStrainII","MDLIB/Main_DOODZ.c:RunMDOODZ"])
p("C78","Deformation gradient of a marker is the product of its steps",
"Every step multiplies the marker's deformation gradient from the left by one plus the time step times the velocity gradient; this gradient is exact for affine flows at every position in the box; a translation leaves the tensor unchanged; over a history the determinant is the product of the area changes.",
"every affine flow, marker position, flag map, time step and number of steps",
"Continuous inputs and histories of arbitrary length.",
["MDLIB/RheologyParticles.c:DeformationGradient"])
p("C79","Reported aspect ratio is that of the strain ellipse",
"For an invertible deformation gradient the reported finite strain aspect ratio is the greatest divided by the least stretch of a material line; it is at least one, one without deformation, and unaffected by rigid rotation.",
"every invertible deformation gradient",
"Continuous inputs with an extremum over all directions.",
["MDLIB/RheologyParticles.c:FiniteStrainAspectRatio"])
p("C80","Peak temperature and pressure are the maxima of the marker's history",
"After any number of steps the recorded peak is the largest of the starting record and all values the marker had.",
"every history",
"Histories of arbitrary length.",
["MDLIB/RheologyParticles.c:UpdateMaxPT"])
p("C81","Melt fraction and composition of markers stay between zero and one",
"After an update from the grid every marker's melt fraction and composition lies in [0,1]; inside that range it is the old value plus the interpolated change; if the grid does not change, neither do the markers.",
"every grid field, flag map, marker position and old value",
"Universally quantified over fields and positions.",
["MDLIB/RheologyParticles.c:UpdateParticlePhi","MDLIB/RheologyParticles.c:UpdateParticleX"])
p("C82","Marker stresses rotate with the material",
"With elasticity and stress rotation switched on, the deviatoric stress of a marker in a flow of vorticity w is turned by w times the time step in the sense of the rotation (exactly, or to first order for the Jaumann rate), keeping its invariants.",
"every stress, vorticity field, time step and marker distribution",
"Universally quantified over fields; the interpolation that should fetch the vorticity writes it.",
["MDLIB/RheologyParticles.c:UpdateParticleStress","MDLIB/RheologyDensity.c:StrainRateComponents"])
p("C83","Markers follow the change of temperature and pressure on the grid",
"Without subgrid diffusion the change of a marker lies between the smallest and largest change of the cells; markers that carry the old grid value follow a uniform change exactly with or without subgrid diffusion; subgrid diffusion does nothing if markers agree with the grid, loses nothing for a uniform offset, and moves a marker towards the grid value but not beyond.",
"every grid field, flag map, marker set, relaxation rate and thread distribution",
"Couples interpolation in both directions for arbitrary marker sets.",
["MDLIB/RheologyParticles.c:UpdateParticleEnergy","MDLIB/RheologyParticles.c:UpdateParticlePressure"])
p("C84","Relaxation of markers does not depend on the characteristic units",
"The fraction by which subgrid diffusion relaxes temperature, stress and pressure of a marker in a step is the same for every choice of characteristic units.",
"every choice of characteristic viscosity, length, velocity and temperature, and all material constants",
"A relation between runs with different units, over continuous parameters.",
["MDLIB/RheologyParticles.c:UpdateParticleEnergy","MDLIB/RheologyParticles.c:UpdateParticlePressure","MDLIB/RheologyParticles.c:UpdateParticleStress","MDLIB/InputOutput.c:ScaleMe"])
p("C85","Stress changes of the grid reach the markers for every setting of the subgrid switch",
"With elasticity on, a uniform change of the grid stress is added to every marker that carries the old grid stress, whatever subgrid_diffusion is.",
"every value of the switch, grid field and marker set",
"The switch is an integer read without check.",
["MDLIB/RheologyParticles.c:UpdateParticleStress","MDLIB/InputOutput.c:ReadInputFile"])
p("C86","Strain rates are exact for linear flows, blind to rigid motion, and deviatoric when asked",
 "If the velocity varies linearly in space, every rock cell reports the exact divergence and normal strain rates and every rock vertex the exact shear rate and vorticity (also on the sides of the box); for any velocity field at all, adding a translation and a rotation changes no reported strain rate and adds the rotation rate to the vorticity; with the compressible option the three normal rates of a cell add up to zero, without it to the divergence; air cells report zero.",
 "every grid, spacing, set of flags, velocity field and former content of the fields",
 "the statement ranges over all velocity fields and all frames of reference",
 ["MDLIB/RheologyDensity.c:StrainRateComponents"])
p("C87","A uniform flow has the same strain rate at every node that carries it",
 "In a uniform flow the shear rate and vorticity stored in a cell, and the normal rates stored at a vertex, are those of the flow, also next to the free surface.",
 "every grid, set of flags and linear flow",
 "all positions of the free surface relative to the node",
 ["MDLIB/RheologyDensity.c:StrainRateComponents","MDLIB/GridRoutines.c:InterpCentroidsToVerticesDouble"])
p("C88","The Krylov solver for the velocities returns what it says",
 "Whatever the matrix, preconditioner, right-hand side, start vector, tolerance and iteration limit: if the iterative velocity solver returns numbers, what is left of the right-hand side for the returned vector is never longer than for the start vector; if it reports convergence, it is shorter by the tolerance; if it does not, the iteration limit has been used up; and at most six iterations (one restart cycle) beyond the limit are made.",
 "every matrix, preconditioner (also a nonlinear one), right-hand side, start vector, tolerance and limit",
 "all linear systems of all sizes and all preconditioners",
 ["MDLIB/Solvers.c:kspgcr"])
p("C89","The Krylov solver finds the best vector in the Krylov space",
 "After k iterations the returned vector leaves the shortest possible remainder among all vectors reached from the start by the first k preconditioned powers of the matrix; an exact preconditioner needs a single iteration.",
 "every system, linear preconditioner and number of iterations",
 "optimality is a statement about all vectors of the space",
 ["MDLIB/Solvers.c:kspgcr"])
p("C90","The Krylov solver never turns a solvable system into not-a-number",
 "For a regular system and a regular preconditioner the returned vector consists of numbers.",
 "every regular system, preconditioner and start vector",
 "breakdown happens on thin sets of inputs",
 ["MDLIB/Solvers.c:kspgcr"])
p("C91","Every cell carries the pressure equation of its material",
 "In the default Stokes solver an incompressible cell has no storage term, its pressure is corrected with the penalty and carried over between iterations; a compressible cell has the storage term compressibility times cell volume over time step (in the scaling of its own equation), its correction uses the inverse of that term. The same holds for the other solvers that support compressibility.",
 "every grid, position of air cells, set of compressible cells and scaling",
 "all arrangements of air above rock",
 ["MDLIB/Solvers.c:KillerSolver","MDLIB/Solvers.c:DirectStokesDecoupledComp","MDLIB/Solvers.c:KSPStokesDecoupled"])
p("C92","An iteration of the default Stokes solver loses nothing",
 "After every iteration the momentum imbalance of the coupled system is exactly the remainder of the velocity solve, hence never longer than before and shorter by the Krylov tolerance on convergence; compressible cells satisfy mass conservation exactly; in incompressible cells the pressure has changed by the penalty times the remaining divergence; and the states that an iteration leaves alone are exactly the solutions of the coupled system.",
 "every coupled system, right-hand side, old pressure and old velocity",
 "all systems of all sizes",
 ["MDLIB/Solvers.c:KillerSolver"])
p("C93","A Stokes solution that is accepted satisfies the requested tolerances",
 "If the default Stokes solver hands back a solution, every cell violates mass conservation by less than the absolute tolerance or by the relative tolerance times the first violation, and the momentum balance is met to its tolerances likewise.",
 "every system, right-hand side, tolerance and iteration limit",
 "depends on the sign pattern of all residuals",
 ["MDLIB/Solvers.c:KillerSolver","MDLIB/MiscFunctions.c:MinMaxArrayVal"])
p("C94","The direct Stokes solver converges",
 "With a symmetric, non-negative velocity block and exact substitution, every iteration of the direct solver balances momentum exactly, never increases the length of the divergence vector, and if the coupled system has a solution the divergence tends to zero, its square at least as fast as one over the number of iterations, and faster for a larger penalty.",
 "every symmetric non-negative velocity block, divergence block, penalty, right-hand side and start pressure",
 "an asymptotic statement over all systems",
 ["MDLIB/Solvers.c:DirectStokesDecoupled"])
p("C95","Density law follows its parameters",
 "At the reference state a material has the density given for it (and its reaction product or melt the density given for that); heating never makes it denser, compressing never lighter; the density is positive; its compressibility and expansivity are the parameters the mass and energy equations use.",
 "every material, temperature, pressure, reaction progress and melt fraction",
 "all temperatures and pressures of all materials",
 ["MDLIB/RheologyDensity.c:EvaluateDensity"])
p("C96","Cell density lies between the densities of its phases",
 "A cell below the surface has a density between those of the phases it holds, equal to their mean by volume; a cell above the surface has none.",
 "every number of phases, fractions and phase densities",
 "all mixtures",
 ["MDLIB/RheologyDensity.c:UpdateDensity"])
p("C97","Elastic moduli of a node lie between those of its phases",
 "Shear modulus and compressibility of a node below the surface are the harmonic mean of the phases, expansivity the arithmetic mean, each between the values of the phases present; above the surface they vanish; with periodic sides both ends of a row of vertices agree.",
 "every number of phases, fractions, moduli and grid",
 "all mixtures and grids",
 ["MDLIB/RheologyDensity.c:ShearModCompExpGrid"])
p("C98","Reaction progress remains a fraction",
 "The reaction progress moves from its old value towards the equilibrium at the current pressure by an implicit relaxation step and never leaves the interval from zero to one.",
 "every initial progress, kinetic time and sequence of time steps and pressures",
 "all histories of pressures and steps",
 ["MDLIB/RheologyDensity.c:ViscosityConcise"])
p("C99","A reacting mixture interpolates the flow laws of its end members",
 "With no reaction the viscosity is that of the reactant, after complete reaction that of the product; in between exponent and activation energy lie between those of the end members and, for equal exponents, the viscosity is their geometric mean by fractions.",
 "every pair of flow laws, progress, temperature, pressure and strain rate",
 "all pairs of laws and all progress values",
 ["MDLIB/RheologyDensity.c:HuetAveragingModel"])
p("C100","A flow law reproduces the experiment it was fitted to",
 "For a law fitted to axial compression (or simple shear), the deviatoric stress tensor that the code computes for the strain rate measured in the experiment is the stress tensor of the experiment, and the result does not depend on the units chosen for the run.",
 "every flow law (dislocation, diffusion, Peierls), temperature, pressure, grain size, stress and choice of units",
 "all parameters and all units",
 ["MDLIB/FlowLaws.c:ReadDataPowerLaw","MDLIB/FlowLaws.c:ReadDataLinear","MDLIB/FlowLaws.c:ReadDataExponential","MDLIB/RheologyDensity.c:ViscosityConcise"])
p("C101","Choosing a flow law by number sets that law and nothing else",
 "A diffusion law number replaces the whole diffusion law of the material and leaves its dislocation law alone; the user-defined power laws meet the reference viscosity or the reference stress given for them; a negative number cancels the experimental correction; unknown numbers stop the run.",
 "every law number, previous parameters and choice of units",
 "all numbers, parameters and units",
 ["MDLIB/FlowLaws.c:ReadDataPowerLaw","MDLIB/FlowLaws.c:ReadDataLinear","MDLIB/FlowLaws.c:ReadDataExponential","MDLIB/InputOutput.c:ReadInputFile"])
p("C102","The defect handed to the Stokes solver is the residual of every equation, scaled once",
 "After each evaluation every solved node shows the residual of its own equation, other nodes keep what they showed, and the right-hand side of the correction is, entry by entry, that residual times the scaling factor of the row, in whatever order the threads visit the nodes.",
 "every grid, legal tag map, residual, scaling factors, former contents of the arrays and thread schedule",
 "all schedules and all tag maps",
 ["MDLIB/StokesRoutines.c:EvaluateStokesResidualDecoupled","MDLIB/StokesRoutines.c:SolveStokesDefectDecoupled"])
p("C103","A small reported residual means that the equations are solved",
 "When the reported norms of the horizontal momentum, vertical momentum and mass equations are below a tolerance, every equation is fulfilled up to a multiple of that tolerance; when all equations are fulfilled the norms are small; the norms exist for every grid.",
 "every grid, tag map, residual and scaling",
 "all residuals and grids",
 ["MDLIB/StokesRoutines.c:EvaluateStokesResidualDecoupled","MDLIB/Main_DOODZ.c:RunMDOODZ"])
p("C104","A layered model at rest under its own weight is in balance",
 "With densities that vary with depth only, no motion and no deviatoric stress, the lithostatic pressure computed by the code satisfies every discrete momentum and mass equation exactly, up to and including the free surface.",
 "every density profile, grid, gravity and background pressure",
 "all profiles and grids",
 ["MDLIB/StokesRoutines.c:EvaluateRHS","MDLIB/StokesAssemblyDecoupled.c:Zmomentum_InnerNodesDecoupled","MDLIB/StokesAssemblyDecoupled.c:Xmomentum_InnerNodesDecoupled","MDLIB/GridRoutines.c:ComputeLithostaticPressure"])
p("C105","Polar gravity points to the centre of the planet",
 "With polar gravity switched on, gravity at every point has the strength of the input and points to the origin.",
 "every point",
 "all points of the plane",
 ["MDLIB/StokesRoutines.c:EvaluateRHS"])
p("C106","Diagonal scaling brings the diagonal of the velocity block to one size",
 "After diagonal scaling all diagonal entries of the velocity block have the same size, so that viscosity contrasts no longer appear in it.",
 "every assembled velocity block",
 "all matrices",
 ["MDLIB/StokesRoutines.c:ExtractDiagonalScale","MDLIB/StokesRoutines.c:ScaleMatrix"])
p("C107","The phase map shows the phase of the nearest marker",
 "In the phase map of the output every cell of the visualisation grid shows the phase of the marker nearest to its centre among the visible markers in that cell; a cell without visible marker shows -1. Markers in air cells are not visible.",
 "every marker cloud, grid and schedule",
 "all marker positions and orders",
 ["MDLIB/HDF5Output.c:WriteOutputHDF5","MDLIB/ParticleRoutines.c:Interp_Phase2VizGrid"])
p("C108","Output files hold the documented datasets on the documented points",
 "Each output file holds exactly the documented datasets, each once and in an existing group, with one initialised value for every point of the part of the grid, the surface, the marker cloud or the history it belongs to; nothing outside an array is read.",
 "every grid size, marker count and combination of options",
 "all sizes and options",
 ["MDLIB/HDF5Output.c:WriteOutputHDF5","MDLIB/HDF5Output.c:WriteOutputHDF5Particles","MDLIB/MemoryAllocFree.c:GridAlloc"])
p("C109","Output is in SI units",
 "Every dimensional dataset of the output files, and the parameter array, is in SI units, whatever characteristic values the run uses internally.",
 "every choice of the characteristic viscosity, length, velocity and temperature",
 "all scalings",
 ["MDLIB/HDF5Output.c:ScaleBack","MDLIB/InputOutput.c:ScaleMe"])
p("C110","The time series hold the means over the rock",
 "Entry n of each time series is the mean over the cells of rock of its quantity at step n, in SI units, and the mean of an invariant is bounded by its extreme values; the result does not depend on the thread schedule.",
 "every field, flag pattern, step count and schedule",
 "all fields and schedules",
 ["MDLIB/RheologyDensity.c:ComputeMeanQuantitesForTimeSeries","MDLIB/RheologyDensity.c:LogTimeSeries"])
p("C111","Deformation maps show the dominant mechanism on the stated axes",
 "Each point of a deformation mechanism map belongs to the temperature, strain rate and grain size of its axes, shows the viscosity of the law there and the mechanism with the largest strain rate.",
 "every map size, material and law",
 "all materials and axis ranges",
 ["MDLIB/RheologyDensity.c:GenerateDeformationMaps"])
p("C112","A run can be continued with more steps",
 "A breakpoint written in a run of N steps can be loaded into a run with another number of steps: the state and the recorded history come back.",
 "every state, both step counts",
 "all states and step counts",
 ["MDLIB/InputOutput.c:LoadBreakpointParticles","MDLIB/InputOutput.c:MakeBreakpointParticles"])
p("C113","Writing output does not change the run",
 "A run gives the same results however often output is written.",
 "every state and output interval",
 "all states and output intervals",
 ["MDLIB/HDF5Output.c:WriteOutputHDF5","MDLIB/HDF5Output.c:WriteResiduals","MDLIB/RheologyDensity.c:UpdateDensity"])
p("C114","Every number of the input file is stored in the unit of its dimension",
 "Each real parameter of the input file (model and material) is held as the number given, or its documented default, divided by the characteristic unit of its physical dimension; angles become radians, Celsius temperatures absolute ones, pure numbers stay as they are. Hence two runs with different characteristic scales describe the same physical problem.",
 "every parameter, every number or absence of one in the file, every choice of positive characteristic scales",
 "a test fixes one set of scales (often unity, where a wrong unit does no harm); the claim is for all scales and all of the hundred parameters",
 ["MDLIB/InputOutput.c:ReadInputFile","MDLIB/InputOutput.c:ReadDou2","MDLIB/InputOutput.c:ReadMatProps"])
p("C115","Contradictory material parameters stop the run and consistent ones do not",
 "Reading the input file ends the run exactly when a phase has contradictory parameters (stress limit below the cohesion, dilation without compressibility, power-law overstress, softening without a drop, a reaction product that does not exist, no flow law, a density from a missing diagram), and never writes outside the material arrays.",
 "every number of phases and all material parameters, every choice of scales",
 "the checks are made on scaled values; the claim is for all values and scales and any number of phases",
 ["MDLIB/InputOutput.c:ReadInputFile","MDLIB/include/mdoodz.h:mat_prop"])
p("C116","A run uses only memory it has, and releases all of it",
 "For every combination of switches, any number of time steps and any course of the nonlinear iterations, a run never reads, writes or releases a block that was not allocated or has been released already, memory does not grow from step to step, and at the end every block has been released exactly once.",
 "every setting of the switches that select arrays, every number of phases, every number of steps, every sequence of passes (converged, stagnated, restarted, continued, switched to Newton)",
 "a run with a leak checker shows one combination of switches and one course of the iterations; allocation, use and release are guarded by different conditions in different files",
 ["MDLIB/MemoryAllocFree.c:GridAlloc","MDLIB/MemoryAllocFree.c:GridFree","MDLIB/MemoryAllocFree.c:PartAlloc","MDLIB/MemoryAllocFree.c:PartFree","MDLIB/MemoryAllocFree.c:FreeSparseSystems","MDLIB/FreeSurface.c:AllocateMarkerChain","MDLIB/InputOutput.c:ReadInputFile","MDLIB/Main_DOODZ.c:RunMDOODZ"])
p("C117","Newton's coefficients are the derivatives of the stresses",
 "In every cell and vertex of rock the coefficients handed to the Newton solver are the derivatives of the stresses (normal stresses including the pressure change by plastic dilation) with respect to strain rates and pressure, for any rheology and any foliation, given the derivatives of viscosity, dilation and anisotropy factor; Picard coefficients are the same with these derivatives set to zero.",
 "every stress law with differentiable viscosity, dilation rate and anisotropy factor, every direction of the foliation, every state",
 "a test compares numbers at one state; a wrong term shows only as slow convergence",
 ["MDLIB/StokesRoutines.c:RheologicalOperators"])
p("C118","Difference quotients converge to the derivatives of the averaged viscosity",
 "The derivatives of viscosity and dilation that Newton's coefficients use are difference quotients of the phase average (arithmetic, harmonic or geometric); as the step shrinks they tend to the derivatives of that average, and so do the stored coefficients.",
 "every differentiable law per phase, every phase mixture, the three averages",
 "a test uses one step size and one law; the limit is a statement about all of them",
 ["MDLIB/FD_Jacobian.c:DerivativesOnTheFly_n","MDLIB/FD_Jacobian.c:DerivativesOnTheFly_s","MDLIB/StokesRoutines.c:RheologicalOperators"])
p("C119","The Newton matrix is the derivative of the residual",
 "Applied to any change of velocities and pressures, every row of the momentum block of the Newton matrix gives the rate at which the momentum residual of that node changes, strain rates, averaging to vertices and stresses included.",
 "every mesh size, every stress law, every velocity and pressure field, every change, every node",
 "a test can compare one matrix with difference quotients at one state; a wrong neighbour or weight is a small error that only slows convergence",
 ["MDLIB/StokesAssemblyDecoupled.c:Xjacobian_InnerNodesDecoupled3","MDLIB/StokesAssemblyDecoupled.c:Zjacobian_InnerNodesDecoupled3","MDLIB/StokesAssemblyDecoupled.c:BuildJacobianOperatorDecoupled","MDLIB/RheologyDensity.c:StrainRateComponents"])
p("C120","The stress update does not depend on the orientation of the axes",
 "If strain rate and old stress at a point are given in axes turned by any angle, the stress comes out in the turned axes and everything else - viscosity, rates of the mechanisms, plastic rate, pressure, heat, and whether the program stops - is unchanged.",
 "every material, every setting, every state of the point, every angle, cells and vertices",
 "a test can turn one state by one angle; an invariant that forgets the out-of-plane component or counts the shear twice passes every test in pure shear",
 ["MDLIB/RheologyDensity.c:ViscosityConcise"])
p("C121","Shear heating is the inelastic part of the work",
 "In a cell the heat source is never negative and equals, to the relative tolerance of the local iterations, the work of the stress on the strain rate less its elastic part; the stress is parallel to the effective strain rate and, in plastic materials, not above the strength plus the viscous overstress; the update of a material with meaningful parameters gives a result.",
 "every combination of creep mechanisms, elasticity on or off, every state",
 "heat is a sum over mechanisms of rates obtained by iteration; a test sees one mechanism at one state, where a missing or wrongly evaluated contribution may be negligible",
 ["MDLIB/RheologyDensity.c:ViscosityConcise","MDLIB/RheologyDensity.c:LocalIterationViscoElastic","MDLIB/ThermalRoutines.c:EnergyDirectSolve"])
p("C122","Every node of the grid gets the mean of its phases, within the limits",
 "After the viscosity update every rock cell and vertex holds the chosen mean of the viscosities of the phases present, between the limits of the user, its stress is twice this viscosity times the effective strain rate and is not above the largest strength (with overstress) of its phases; the other fields are means weighted with the fractions; air nodes hold zeros; nodes do not affect each other; a cell without any phase stops the program, and no other cell is reported as empty.",
 "every number of phases, every composition, all three means, every grid",
 "the claim is about every mixture at every node; a test grid has a few compositions",
 ["MDLIB/RheologyDensity.c:NonNewtonianViscosityGrid","MDLIB/RheologyDensity.c:ViscosityConcise"])
p("C123","Heat of a cell with several phases is the work of its stress",
 "Also where several phases share a cell the heat source is the work of the stress of the cell on the inelastic strain rate, whichever mean is used for the viscosity.",
 "every composition, all three means",
 "with one phase per cell, or with phases of equal viscosity, the difference is zero",
 ["MDLIB/RheologyDensity.c:NonNewtonianViscosityGrid","MDLIB/ThermalRoutines.c:EnergyDirectSolve"])
p("C124","Reactions with kinetics approach equilibrium without overshoot",
 "With reaction kinetics the density lies between the equilibrium densities at the old and at the new conditions, is the new one when the time scale of the reaction is zero, and the time scale is positive exactly when there is an affinity for the reaction.",
 "every time step, time scale, equilibrium density and affinity",
 "overshoot shows only for time steps that are long or short compared to the reaction",
 ["MDLIB/RheologyDensity.c:ViscosityConcise"])
p("C125","The weight of the rock below a free surface follows the surface",
 "The density of a cell cut by the free surface is reduced to the part below the surface, so the mass of every column, and the pressure of a column of rock at rest, is that of the rock below the surface and changes continuously when the surface moves through the grid.",
 "every grid, surface, density, gravity and column",
 "all positions of the surface relative to the rows, all columns",
 ["MDLIB/FreeSurface.c:SurfaceDensityCorrection","MDLIB/FreeSurface.c:CellFlagging","MDLIB/StokesRoutines.c:EvaluateRHS","MDLIB/StokesAssemblyDecoupled.c:Zmomentum_InnerNodesDecoupled"])
p("C126","The velocity reported for the surface is that of the material",
 "The horizontal and vertical velocity given to the surface and its markers is the velocity of the rock at that position: exact for flows that vary linearly, between the neighbouring nodes otherwise, and never left over from an earlier step.",
 "every grid, velocity field, surface position and marker",
 "all velocity fields and positions of the surface",
 ["MDLIB/FreeSurface.c:SurfaceVelocity","MDLIB/FreeSurface.c:CellFlagging","MDLIB/Main_DOODZ.c:RunMDOODZ"])
p("C127","A run starts from the background flow and keeps the solution afterwards",
 "At the first step every free node carries the background flow at its own position with the prescribed rate of expansion, wall nodes their boundary value, air no velocity and no pressure; later steps change wall and air nodes only.",
 "every grid, tag array, background rate and earlier solution",
 "all grids, tags and rates",
 ["MDLIB/GridRoutines.c:InitialiseSolutionFields"])
p("C128","The first surface chain covers the model evenly",
 "The surface starts with the same number of markers in every column of cells, evenly spaced and strictly inside their column.",
 "every grid width and number of columns",
 "all numbers of columns",
 ["MDLIB/FreeSurface.c:SetTopoChainHorizontalCoords","MDLIB/Setup.c:BuildInitialTopography"])
p("C129","Density carried by markers follows the rock",
 "The density remembered from the previous step is the density the rock had then: for a rock at rest whose density does not change, no cell reports a density change, so no volume is created or destroyed.",
 "every density, surface position and number of time steps",
 "a recursion over all steps",
 ["MDLIB/RheologyParticles.c:UpdateParticleDensity","MDLIB/Main_DOODZ.c:RunMDOODZ","MDLIB/FreeSurface.c:SurfaceDensityCorrection","MDLIB/RheologyDensity.c:UpdateDensity"])
p("C130","Thermal expansion is the density change",
 "The volume source of a cell of rock is the rate at which its material grows between the old and the new temperature according to its density laws; it is zero in air.",
 "every mixture, temperature history and grid",
 "all mixtures and flag arrays",
 ["MDLIB/MeltingRoutines.c:MassSourceTerm","MDLIB/RheologyParticles.c:UpdateParticleDivThermal","MDLIB/StokesRoutines.c:EvaluateRHS"])
p("C131","Only compressible cells are treated as compressible",
 "In every time step a cell takes part in compression exactly if it holds rock whose compressibility is not negligible in that step.",
 "every history of flags and compressibilities",
 "a history of any length",
 ["MDLIB/StokesRoutines.c:DetectCompressibleCells","MDLIB/Solvers.c:KillerSolver"])
p("C132","Thermal start does what is asked",
 "The initial cooling lasts as long as asked, in ten steps, also in rounded arithmetic; the initial perturbation raises the temperature by the given amount exactly inside the given ellipse.",
 "every duration, ellipse and grid",
 "all floating-point durations; rounding errors depend on every digit",
 ["MDLIB/ThermalRoutines.c:ThermalSteps","MDLIB/ThermalRoutines.c:SetThermalPert"])
p("C133","The heat solver solves the heat equations",
 "The temperatures returned satisfy the assembled equations, in Cartesian and in polar coordinates, given correct triangular substitutions; in polar coordinates the factors exist whenever the equations have a unique solution.",
 "every matrix and right-hand side",
 "all matrices",
 ["MDLIB/ThermalSolver.c:FactorEnergyCHOLMOD","MDLIB/ThermalSolver.c:SolveEnergyCHOLMOD","MDLIB/ThermalSolver.c:TransposeA"])
p("C134","Grain size is carried by the markers",
 "Markers start with the grain size of their material, keep it while nothing changes it, and stay within the range of grain sizes of the grid.",
 "every marker distribution and grain size field",
 "all distributions",
 ["MDLIB/RheologyParticles.c:InitialiseGrainSizeParticles","MDLIB/RheologyParticles.c:UpdateParticleGrainSize"])
p("C135","Layered rock obeys one law in every orientation",
 "The stress of a layered rock follows the anisotropic law with the reported viscosity and factor in the frame of the layers; turning rock, layers and strain rate together turns the stress; the elastic, viscous and plastic rates add up to the applied one, yielding rock stays at its strength, and the heat source is the irreversible work. The limits on viscosity apply as for other rock.",
 "every orientation, anisotropy factor, strain rate, stress and material",
 "all orientations and material constants; the limits are only reached in extreme corners",
 ["MDLIB/AnisotropyRoutines.c:ViscosityConciseAniso","MDLIB/AnisotropyRoutines.c:Y2","MDLIB/AnisotropyRoutines.c:NonNewtonianViscosityGridAniso","MDLIB/ThermalRoutines.c:EnergyDirectSolve"])
p("C136","Cells of layered rock average their phases",
 "Viscosity, rates, heat and density of every cell and vertex of an anisotropic model are the averages of its phases; air gets none.",
 "every mixture, field and grid",
 "all mixtures on all grids",
 ["MDLIB/AnisotropyRoutines.c:NonNewtonianViscosityGridAniso","MDLIB/StokesAssemblyDecoupled.c:Continuity_InnerNodesDecoupled"])
p("C137","The anisotropy factor of a cell is the mean of its phases",
 "The factor of every cell and vertex is the chosen mean of the factors of its phases, at constant factors or at factors growing with finite strain, and never below one; periodic sides get equal values. The program goes on for every admissible choice.",
 "every mixture, strain, choice of mean and grid",
 "all mixtures and means",
 ["MDLIB/AnisotropyRoutines.c:UpdateAnisoFactor","MDLIB/AnisotropyRoutines.c:AnisoFactorEvolv"])
p("C138","Compressibility and expansion follow the material",
 "In every time step the compressibility and expansivity of a cell of rock are means over the material then in the cell, whatever switches are on, and a restarted run continues with the same values.",
 "every history of compositions, switch setting and restart point",
 "histories of any length and every restart point",
 ["MDLIB/Main_DOODZ.c:RunMDOODZ","MDLIB/RheologyDensity.c:ShearModCompExpGrid"])
p("C139","Grain size in balance with the flow",
 "For a material whose grain size follows the flow, every stress update either ends the program or returns a grain size at which growth balances the reduction by the work of dislocation creep, together with strain rates that add up to that of the flow and the heat they produce; only one such state exists and larger stress means smaller grains.",
 "every strain rate, temperature, pressure, set of creep laws, growth law and elastic setting",
 "a nonlinear system solved by iteration at every point; only sampled states can be tried",
 ["MDLIB/RheologyDensity.c:LocalIterationViscoElasticGrainSize","MDLIB/RheologyDensity.c:ViscosityConcise"])
p("C140","Every built-in flow law can be used",
 "Every flow law, grain size law and Peierls law that the reader accepts by its number gives, in every system of units, a positive viscosity that does not rise with temperature, melt or strain rate and does not fall with pressure or grain size, and a stress update that returns a result.",
 "every law number accepted, every positive scaling, every temperature, pressure, grain size, melt fraction and strain rate",
 "the tables have some fifty laws and each is used over a continuum of states and scalings",
 ["MDLIB/FlowLaws.c:ReadDataPowerLaw","MDLIB/FlowLaws.c:ReadDataLinear","MDLIB/FlowLaws.c:ReadDataGBS","MDLIB/FlowLaws.c:ReadDataExponential","MDLIB/FlowLaws.c:ReadDataGSE"])
p("C141","Density tables are used as they are given",
 "With a density taken from a phase diagram or a density table, the density at the temperature and pressure of a table entry is that entry; everywhere else it lies between the least and the greatest entry, in the same SI value for every choice of characteristic units. The smoothing applied to the quartz-coesite table keeps its ends, its range and its order and never increases a jump, so density does not fall with pressure where the entries do not. A table file that is too short or a diagram that does not exist stops the run.",
 "every file content and length, every temperature and pressure, every positive scaling, every number of smoothing steps",
 "the tables have up to millions of entries from the user's files, and the look-up is used over a continuum of temperatures and pressures",
 ["MDLIB/InputOutput.c:ReadBin","MDLIB/InputOutput.c:ReadInputFile","MDLIB/RheologyDensity.c:ItpRho1D","MDLIB/RheologyDensity.c:Interpolate2Ddata","MDLIB/RheologyDensity.c:EvaluateDensity"])
p("C142","The coupled Krylov solver reduces what is left over of the Stokes equations",
 "With the coupled Krylov solver (solver number 1), velocity and pressure corrections leave over of the momentum and continuity equations no more than the requested fraction of what was left over before; corrections for a flow that is balanced already are zero; a solvable system gives numbers; when all cells are compressible a single iteration is enough.",
 "every symmetric velocity block, divergence block and pressure block, every tolerance, every present flow and pressure",
 "the system is that of any grid and material distribution; convergence depends on all of its entries",
 ["MDLIB/Solvers.c:KSPStokesDecoupled","MDLIB/SparseTools.c:BuildInitialSolutions","MDLIB/StokesRoutines.c:SolveStokesDefectDecoupled"])
p("C143","The compressible direct solver balances momentum and converges to a divergence-free flow",
 "With solver number -1, every returned correction balances the momentum equations exactly and the continuity equation of every compressible cell; the divergence left in incompressible cells never grows after the first iteration and tends to zero, within a bound set by the penalty; if the penalty is large enough for the tolerance the run is not abandoned. The decision to accept is taken on the flow that is returned.",
 "every symmetric velocity block that dissipates, every divergence block, every compressibility, positive penalty, start and right-hand side",
 "convergence holds for infinitely many systems of any size, and the bound is a limit statement",
 ["MDLIB/Solvers.c:DirectStokesDecoupledComp","MDLIB/SparseTools.c:BuildInitialSolutions"])
p("C144","Start vectors and choice of the linear solver",
 "The iterative Stokes solvers start from the present velocity and pressure, each unknown from the value at its own node and never from memory outside the velocity arrays. A solver number in the input file chooses a solver suited to the run; a number that stands for no solver stops the run.",
 "every grid size, boundary layout, flow and every setting of solver number, Newton and anisotropy switches",
 "reads outside an array show only for some grid proportions and depend on what lies behind it",
 ["MDLIB/SparseTools.c:BuildInitialSolutions","MDLIB/StokesRoutines.c:SolveStokesDefectDecoupled","MDLIB/InputOutput.c:ReadInputFile"])
p("C145","Viscous forces never do positive work",
 "In a box with closed sides, whatever the viscosities, the position of the free surface and the kind of wall, the assembled velocity equations take work out of every motion: the sum over all velocity unknowns of velocity times assembled force is never negative, and without air it is zero only at rest, so the velocities are determined by the forces and the factorisation the solver uses exists. The default solver therefore converges on every such system. The free-surface stabilisation does not change this.",
 "every grid size, non-negative viscosity field, layout of air and walls, and velocity field",
 "definiteness of a matrix of grid size concerns all motions at once; a factorisation that happens to succeed says nothing about other viscosities",
 ["MDLIB/StokesAssemblyDecoupled.c:Xmomentum_InnerNodesDecoupled","MDLIB/StokesAssemblyDecoupled.c:Zmomentum_InnerNodesDecoupled","MDLIB/Solvers.c:DirectStokesDecoupledComp","MDLIB/RheologyDensity.c:StrainRateComponents"])
p("C146","A model with topography has one flow",
 "Below a free surface of any shape, with positive viscosities in the rock and closed sides, the flags the program sets leave every rock velocity tied to the walls: the momentum equations have exactly one solution, and the factorisation the solver uses exists.",
 "every grid size, surface profile, viscosity field and right-hand side",
 "whether a system is singular depends on the whole surface profile; a run on one profile says nothing about others, and a singular factorisation may still return numbers",
 ["MDLIB/FreeSurface.c:CellFlagging","MDLIB/StokesAssemblyDecoupled.c:Xmomentum_InnerNodesDecoupled","MDLIB/StokesAssemblyDecoupled.c:Zmomentum_InnerNodesDecoupled","MDLIB/Solvers.c:DirectStokesDecoupledComp"])
p("C147","The line search chooses by the residual the step will really have",
 "The residual measured for a trial step of the line search is the residual found when the next nonlinear iteration starts from that step, whatever other steps were tried before or after it; so an accepted step makes the next measured residual smaller.",
 "every mesh, material, flow, list of tried steps and previous history of the step",
 "depends on hidden state left on the mesh by earlier trials; a test compares a few histories out of all",
 ["MDLIB/StokesRoutines.c:UpdateNonLinearity","MDLIB/StokesRoutines.c:EvaluateStokesResidualDecoupled","MDLIB/Main_DOODZ.c:RunMDOODZ","MDLIB/RheologyDensity.c:NonNewtonianViscosityGrid"])
p("C148","The fields recorded for a step belong together",
 "However the nonlinear iterations of a step ended, the recorded stresses are those of the recorded velocities, pressure and stresses satisfy the momentum balance to the residual that was accepted, and the recorded elastic and plastic parts of the volume change add up to the divergence of the recorded velocities to that residual. A viscoelastic model always gets that far.",
 "every mesh, material distribution, flow, history of the iterations and rock cell",
 "an inconsistency shows only for particular materials, pressures and iteration histories",
 ["MDLIB/Main_DOODZ.c:RunMDOODZ","MDLIB/StokesRoutines.c:UpdateNonLinearity","MDLIB/RheologyDensity.c:NonNewtonianViscosityGrid","MDLIB/RheologyDensity.c:ViscosityConcise"])
p("C149","A mixture of two constant viscosities has the chosen mean of the two",
 "A material that only creeps at constant viscosity and is declared a mixture with a second one deforms at the arithmetic, harmonic or geometric mean of the two viscosities, weighted by its fraction; at fraction one it is the first, at fraction zero the second, and it never leaves the range between both.",
 "every pair of viscosities within the limits of the user, every fraction and strain rate",
 "a wrong mean still lies near the right one for the viscosities and fractions a test picks",
 ["MDLIB/RheologyDensity.c:ViscosityConcise"])
p("C150","Shear heating gives back the power that drives the flow",
 "In a closed box whose flow obeys the equations, what the body forces put into the flow per time is what the recorded stresses dissipate, and it is all released as shear heating: nothing is lost on the way to the energy equation and nothing is invented.",
 "every mesh, distribution of materials and densities, free surface and flow in a closed box",
 "the sum over all cells cancels errors in the flows a test picks, and the missing part depends on the shape of the flow",
 ["MDLIB/StokesRoutines.c:UpdateNonLinearity","MDLIB/RheologyDensity.c:NonNewtonianViscosityGrid","MDLIB/RheologyDensity.c:ViscosityConcise","MDLIB/ThermalRoutines.c:EnergyDirectSolve"])
p("C151","A model of linear materials is solved by one linear solve",
 "With constant viscosities and elasticity the assembled matrix is the exact derivative of the residual: after any step along the solution of the linear system every residual has changed in proportion, after the full step all equations hold, and the line search takes the full step.",
 "every mesh and free surface, every distribution of materials, every starting flow, step and solution of the linear system",
 "a wrong coefficient of the matrix only slows the iterations down, the residual still falls below the tolerance in the cases a test runs",
 ["MDLIB/StokesAssemblyDecoupled.c:BuildStokesOperatorDecoupled","MDLIB/StokesRoutines.c:EvaluateStokesResidualDecoupled","MDLIB/StokesRoutines.c:LineSearchDecoupled","MDLIB/StokesRoutines.c:ExtractSolutions2","MDLIB/Main_DOODZ.c:RunMDOODZ"])
p("C152","A step has exactly one flow",
"With constant viscosities (and elasticity), no density inversion under the surface stabilisation and no air or gentle topography, a time step has one flow: two flows that agree on what the walls prescribe and both balance momentum and volume are equal, in velocity everywhere and in pressure wherever the equations tie it down (compressible cells, cells connected to them or to air). The linear system the solver is handed then always has a solution, and which flow the step starts from does not change what it ends with.",
"every mesh size and spacing, every such material and composition field, every gravity and density field without inversion, every starting flow with the same walls, every equation numbering and every right-hand side",
"A run shows one solution from one starting guess; that no other flow balances the same equations and that no data make the system unsolvable are statements about all of them.",
["MDLIB/StokesAssemblyDecoupled.c: Xmomentum_InnerNodesDecoupled, Zmomentum_InnerNodesDecoupled, Continuity_InnerNodesDecoupled","MDLIB/StokesRoutines.c: ExtractSolutions","MDLIB/Solvers.c: KillerSolver","MDLIB/RheologyDensity.c: UpdateNonLinearity"])
p("C153","A closed incompressible model has a flow exactly if the walls let out what is produced inside",
"In a box without air whose walls prescribe all normal velocities and whose cells cannot be compressed, with constant viscosities (and elasticity), a time step has a flow that balances momentum and volume if and only if the prescribed velocities let out as much volume as the cells produce. All such flows then have the same velocities and pressures that differ by one number.",
"every mesh size and spacing, every such material and composition field, every gravity and density field, all wall velocities, every field of volume production, every starting flow",
"A run that converges or not shows one choice of wall velocities; that no flow exists for all others, however long the solver iterates, is a statement about all flows.",
["MDLIB/StokesAssemblyDecoupled.c: Continuity_InnerNodesDecoupled","MDLIB/StokesRoutines.c: EvaluateRHS","MDLIB/Solvers.c: KillerSolver","MDLIB/Setup.c: SetBCs"])
p("C154","A uniform body in pure shear gets the textbook flow on every grid",
"In a model without air whose walls are set with the pure shear functions that come with the code, a time step of an incompressible body of one viscosity and one density has, on every grid, exactly the solution u = -eps x, v = eps z at every velocity node, with the pressure of the weight of the body up to a constant; the stresses recorded are -2 eta eps and 2 eta eps in every cell and no shear stress. Bodies of several constant viscosities always have a flow under these walls.",
"every grid size and spacing, every position of the model, every background strain rate, viscosity, density and gravity vector, every starting flow",
"A benchmark compares one resolution within a tolerance; that there is no discretisation error at any resolution, and no second solution, are statements about all grids and all flows.",
["MDLIB/Setup.c: SetPureShearBCVx, SetPureShearBCVz, SetBCs","MDLIB/StokesAssemblyDecoupled.c: Xmomentum_InnerNodesDecoupled, Zmomentum_InnerNodesDecoupled, Continuity_InnerNodesDecoupled","MDLIB/StokesRoutines.c: EvaluateRHS","MDLIB/RheologyDensity.c: UpdateNonLinearity"])
p("C155","The patch test is passed by every flow law",
"In an isotropic model without air and gravity in which composition, temperature, grain size, melt, old stress and all other data are the same everywhere, a velocity field with the same gradient everywhere and a pressure that is the same everywhere give the same stress, viscosity and corrected pressure in every cell and at every vertex and leave no residual in any inner momentum equation, for every combination of flow laws, elasticity and plasticity. With the pure shear walls that come with the code the flow u = -eps x, v = eps z solves the step of every incompressible uniform material.",
"every grid size and spacing, every linear flow, every pressure, every material law the viscosity routine offers, every state left by earlier passes",
"The patch test is usually run for one law on one grid; that no law, no boundary cell and no averaging between cells and vertices breaks it on any grid is a statement about all of them.",
["MDLIB/RheologyDensity.c: UpdateNonLinearity, NonNewtonianViscosityGrid, StrainRateComponents","MDLIB/StokesAssemblyDecoupled.c: Xmomentum_InnerNodesDecoupled, Zmomentum_InnerNodesDecoupled","MDLIB/StokesRoutines.c: EvaluateRHS","MDLIB/Interpolation.c: InterpCentroidsToVerticesDouble"])
p("C156","A Maxwell body loads along the textbook curve, step after step, through the markers",
"A uniform viscoelastic body (viscosity eta, shear modulus G) shortened by the pure shear walls: in every time step the stress of each marker changes by exactly the implicit Euler rule for the Maxwell law, d(tau)/dt = 2 G e - G/eta tau, though it is interpolated to cells and vertices, used as the old stress of the local iterations and of the momentum solve and interpolated back as a change, with or without subgrid diffusion. From rest, after n steps of length dt at the rate eps, every marker carries the stress 2 eta eps (1 - (1 + G dt/eta)^-n), the shear stress stays zero, and with ever shorter steps this tends to 2 eta eps (1 - exp(-G t/eta)).",
"every grid, every number and placement of markers that feeds all nodes, every number of steps, step length and rate, every gravity, markers that move, vanish or are copied between the steps, every content of the arrays before the step",
"A test runs one grid for a few steps and compares with a tolerance; that no number of interpolations back and forth smears or drifts the stress, and that the curve is met exactly in every step, is an induction over the steps.",
["MDLIB/Main_DOODZ.c: RunMDOODZ (stress interpolation, UpdateParticleStress)","MDLIB/RheologyParticles.c: UpdateParticleStress","MDLIB/RheologyDensity.c: ViscosityConcise, NonNewtonianViscosityGrid","MDLIB/ParticleRoutines.c: P2Mastah, Interp_Grid2P_centroids2, Interp_Grid2P","MDLIB/StokesAssemblyDecoupled.c"])
p("C157","Evenly heated rock warms evenly, and a sheared body warms by its shear heating",
"An insulated body of one heat capacity in which heat is produced evenly: in every time step the temperature of each marker rises by exactly the heat of the step over the heat capacity, though it is interpolated to the cells, solved for and interpolated back, with or without subgrid diffusion and whatever the conductivities. In particular a viscous body shortened at the rate eps by the pure shear walls, with radiogenic heat Q, warms by (Q + 4 eta eps^2)/(rho Cp) per unit of time at every marker.",
"every grid, every number and placement of markers that feeds all cells, every number of steps and step lengths, markers that move, vanish or are copied between the steps, every conductivity, with gravity",
"A benchmark compares one run with the straight line to a tolerance; that neither the interpolations nor the solve lose or gain heat in any number of steps is an induction, and that the heating is that of the momentum solution on every grid needs its uniqueness.",
["MDLIB/Main_DOODZ.c: RunMDOODZ (temperature interpolation, EnergyDirectSolve, UpdateParticleEnergy)","MDLIB/ThermalRoutines.c: EnergyDirectSolve","MDLIB/RheologyParticles.c: UpdateParticleEnergy","MDLIB/RheologyDensity.c: NonNewtonianViscosityGrid","MDLIB/ParticleRoutines.c: P2Mastah, Interp_Grid2P_centroids2"])
p("C158","The work spent on a Maxwell body is stored or warms it, and never yields more",
"An insulated uniform viscoelastic body shortened by the pure shear walls, with shear heating on: in every step each marker warms by exactly what the viscous element dissipates under the new stress, (stress:stress)/(2 eta), plus the radiogenic heat; none of the elastic work turns into heat. Over any number of steps the work of the flow plus the radiogenic heat equals heat capacity times warming of each marker plus the elastic energy stored by its stress plus a loss that is never negative (the elastic energies of the stress changes of the steps), so the temperatures never show more heat than was put in and not stored.",
"every grid, every number and placement of markers that feeds all nodes, every number of steps, step length and rate, every conductivity and gravity, markers that move, vanish or are copied between the steps",
"Energy of a coupled run is compared to a tolerance in a test with a few steps; the exact budget, with the sign of the loss, for stress and temperature that both pass through the markers in every step is an induction over the steps.",
["MDLIB/Main_DOODZ.c: RunMDOODZ","MDLIB/RheologyDensity.c: ViscosityConcise (Wdiss), NonNewtonianViscosityGrid","MDLIB/ThermalRoutines.c: EnergyDirectSolve","MDLIB/RheologyParticles.c: UpdateParticleStress, UpdateParticleEnergy","MDLIB/ParticleRoutines.c: P2Mastah"])
p("C159","A yielding body in pure shear follows the Maxwell curve up to its strength and stays there",
"A uniform incompressible body with viscosity, shear modulus and a strength that does not depend on pressure, loaded from rest by the pure shear walls at a constant rate: after every time step every marker carries the pure shear stress of the Maxwell body as long as that is below the strength, and the strength from then on, to within the 1e-17 of the yield test, whatever the viscous stress would be. With an overstress viscosity the stress exceeds the strength by exactly this viscosity times the plastic rate. Yielding or not, the uniform flow leaves no force unbalanced, gravity included.",
"every grid, every number and placement of markers that feeds all nodes, every number of steps, step length, rate, viscosity, modulus, strength and overstress viscosity within the cut-offs of the viscosity, markers that move, vanish or are copied between the steps",
"The elasto-plastic loading test of the manual checks one material at a few steps to a tolerance; the bound for all materials and all numbers of steps, with the tolerance not accumulating from step to step, is an induction over the steps.",
["MDLIB/Main_DOODZ.c: RunMDOODZ","MDLIB/RheologyDensity.c: ViscosityConcise, NonNewtonianViscosityGrid","MDLIB/RheologyParticles.c: UpdateParticleStress","MDLIB/ParticleRoutines.c: P2Mastah"])
p("C160","A flow already in balance is taken as it is; pure shear of a uniform body needs no solve",
"If the flow a time step starts with leaves no residual, the nonlinear loop ends at its first test, after one evaluation, and records this flow, whatever the linear solver, line search and iteration limits are. Under the pure shear walls the start fields of the program (background flow, then lithostatic pressure) are exactly the textbook flow, at every node, and what later steps do before their loop leaves it as it is. So a uniform incompressible body without weight is sheared for any number of steps with the textbook velocity at every node and an even pressure, for every flow law, and nothing is ever solved. A body with weight that yields at a constant strength is loaded from rest along the curve of C159 by the program's own steps.",
"every grid, rate, background pressure, tolerance above zero, solver, iteration limit and number of steps; every flow law whose update goes through (weightless body); boxes that keep their size",
"A test runs one setup and sees that the first residual is small; that it is exactly zero for every rheology and that the choice of solver then cannot matter, step after step, is a statement about all programs that could be plugged in.",
["MDLIB/Main_DOODZ.c: RunMDOODZ","MDLIB/GridRoutines.c: InitialiseSolutionFields, ComputeLithostaticPressure","MDLIB/StokesRoutines.c: ApplyBC, EvaluateStokesResidualDecoupled","MDLIB/RheologyDensity.c: UpdateNonLinearity"])
p("C161","Simple shear of a uniform body between moving walls needs no solve",
"Under the simple shear walls that come with the code, with periodic sides and z = 0 in the middle of the box, the start fields of the program are exactly the textbook flow: horizontal velocity 2 eps z at every node, the ghost rows outside the walls included, no vertical velocity, one pressure. The residual of this flow is zero in every row that is measured, those at the periodic seam included, for every flow law of a uniform incompressible body without weight. So any number of recorded steps have this flow and an even pressure, after one evaluation each, whatever the solver and the iteration limits are.",
"every grid, rate, background pressure, tolerance above zero, solver, iteration limit and number of steps; every flow law whose update goes through",
"The seam rows join the first and the last cell of a row; one wrong neighbour shows only where the two sides differ, and a test cannot run all rheologies, grids and solvers.",
["MDLIB/Setup.c: SetSimpleShearBCVx, SetSimpleShearBCVz","MDLIB/GridRoutines.c: InitialiseSolutionFields","MDLIB/StokesRoutines.c: ApplyBC, EvaluateStokesResidualDecoupled","MDLIB/Main_DOODZ.c: RunMDOODZ"])
p("C162","What a recorded time step guarantees about its flow",
"In safe mode every recorded velocity field is one whose residuals, measured with the time step that is kept, are below the absolute tolerances, or below the relative ones with respect to the fields the step began with. The kept time step is the first one divided once per stagnation, every new attempt begins with the fields of the beginning of the step, and the recorded pressure of the cells is the corrected pressure of the final update. A step always ends within (nit_max + 1) max_num_stag passes. Without safe mode there is no such guarantee: after a failed test the velocities the solver left are recorded untested.",
"every solver (linear solver and line search), flow law, grid, tolerance, iteration limit and starting field",
"Whether a restart really begins from the old fields, or a test was made with the time step before the reduction, shows only in runs that stagnate; the guarantee is about all solvers and all failure patterns.",
["MDLIB/Main_DOODZ.c: RunMDOODZ","MDLIB/GridRoutines.c: InitialiseSolutionFields","MDLIB/StokesRoutines.c: EvaluateStokesResidualDecoupled, SolveStokesDefectDecoupled"])
p("C163","A creeping rock in pure or simple shear has the stress of the laboratory",
"A body of one rock whose only mechanism is dislocation creep by a published law (measured in axial compression or in simple shear) is deformed without gravity by the walls the program sets, in pure shear or in simple shear. At every time step the program records in every cell and at every vertex the stress the published law gives at that strain rate, temperature, pressure, grain size and melt fraction; the pressure stays the background pressure, all of the strain rate is creep, the heat production is stress times strain rate, every step is recorded and nothing is solved.",
"every grid, published law, temperature history, number of steps, solver, tolerance and iteration limit; strain rates above the smallest the code uses and viscosities within the limits",
"A test runs one law at one rate on one grid to a tolerance; the claim is equality for every law and every history, and includes the conversion of the law, the local iterations, the averaging over phases, the assembly and the convergence test.",
["MDLIB/RheologyDensity.c: ViscosityConcise, LocalIterationViscoElastic, NonNewtonianViscosityGrid","MDLIB/FlowLaws.c: ReadDataPowerLaw","MDLIB/Main_DOODZ.c: RunMDOODZ","MDLIB/GridRoutines.c: InitialiseSolutionFields"])
p("C164","Shear heating and creep feed back on each other as the law says",
"A body of one rock that creeps by a published law and keeps its heat is deformed evenly, in pure or in simple shear. At every time step the stress recorded everywhere is the stress of the law at the temperature the markers have reached; every marker warms in that step by the radiogenic heat and the work of that stress, twice stress times strain rate, over the heat capacity, times the length of the step; flow and pressure never change. So from step to step the rock gets warmer and, unless the activation enthalpy is negative, not stronger.",
"every grid, published law, number and length of steps, conductivity, marker motion and reseeding by copies, solver; viscosities within the limits of the settings",
"The loop between temperature, strength and heating runs through the marker interpolation, the rheology, the nonlinear loop, the thermal solve and the marker update; a test sees the composition for one law and a few steps, to a tolerance.",
["MDLIB/RheologyDensity.c: ViscosityConcise, NonNewtonianViscosityGrid","MDLIB/ThermalRoutines.c: EnergyDirectSolve","MDLIB/RheologyParticles.c: UpdateParticleEnergy","MDLIB/ParticleRoutines.c: P2Mastah","MDLIB/Main_DOODZ.c: RunMDOODZ"])
p("C165","Simple shear of an elastic body follows the Maxwell law, turning with the flow",
"A visco-elastic body in simple shear between two plates, with periodic sides, starting without stress: after n time steps every marker carries the shear stress 2 eta eps (1 - (1 + G dt/eta)^-n), and the velocity written is that of simple shear at every node, whatever solver is linked in. If stress rotation is switched on, the stress turns with the material (co-rotational Maxwell law), so that normal stresses appear. The second half is false: the normal stresses of the markers stay exactly zero, whatever the switch.",
"all grids of at least five by five vertices, all viscosities, shear moduli, time steps and strain rates, all numbers of steps, all marker distributions that feed every node (moving and being replaced between steps), all solvers, all settings of the stress rotation switch",
"A test compares one stress curve with one setting within a tolerance; that no setting of the rotation switch ever has an effect on any run, and that the shear stress is the closed form after any number of steps with any solver, is a statement about all runs.",
["MDLIB/RheologyParticles.c:UpdateParticleStress","MDLIB/StokesRoutines.c:UpdateNonLinearity","MDLIB/GridRoutines.c:InitialiseSolutionFields","MDLIB/InputOutput.c:stress_rotation","MDLIB/Setup.c:SetBCs"])
p("C166","Stress depends on the layers of a rock, and new markers continue the layers",
"A layered rock is described by the orientation of its layers; a normal to the layers has no sign. The stress, heating and rates recorded depend on this orientation only: not on the side the directors of the markers point to, and not on the angle kept on the grid besides the director functions. At the start the layers are at the angle given for the marker or its phase, measured from the horizontal of the place on a planet. A marker that enters through a side has the layers of its neighbour, or, if the set-up sets angles, those the set-up asks for, as markers at the start had. The last part is false: a set-up that keeps the angle offered gets mirrored layers where the director points downwards, and on a planet the angle is taken from the horizontal of the box.",
"all materials, means of phases, orientations, marker distributions that feed the nodes and signs of directors; all places and neighbours of entering markers",
"A test uses some orientations, and directors that have been set and not turned by the flow; the sign only shows where a director has passed the horizontal, and reading the code suggests that the mirrored angle of the grid spoils the stress, which it never does.",
["MDLIB/AnisotropyRoutines.c:ViscosityConciseAniso, NonNewtonianViscosityGridAniso, InitialiseDirectorVector","MDLIB/ParticleRoutines.c:AssignMarkerPropertiesInflow, P2Mastah","MDLIB/include/mdoodz.h:SetAnisoAngle"])
p("C167","Walls that move with the rock carry the rock along",
"In a model whose box is deformed with the velocities of its sides, rock in homogeneous pure shear stays in the box and keeps its place between the walls: the walls move with the velocity of the rock they touch, so no rock crosses them. The sides do move with that velocity. The rest is false. The box and the grid are moved first, and the markers are then moved in the new box with velocities that belong to the old positions of the grid lines. Rock that lies in a strip along the shortened sides when a step begins is found outside at half the step and removed from the model: the left and right sides in shortening, the top and the bottom in extension; the strips at the two sides are not mirror images; the rock that is kept moves at the rates eps/(1 - eps dt) and eps/(1 + eps dt) and falls behind the wall. All rock that already lies between the moved walls is kept.",
"all grid sizes, boxes around the origin, strain rates of either sign, time steps that shorten the box by less than half, and all markers of the box",
"The loss is a strip of a fraction of a cell and is hidden by new markers put into cells that run empty; a test sees it only if it counts the markers along a wall.",
["MDLIB/AdvectionRoutines.c:PureShearALE","MDLIB/AdvectionRoutines.c:RogerGuntherII","MDLIB/AdvectionRoutines.c:isoutPart","MDLIB/ParticleRoutines.c:V2P","MDLIB/GridRoutines.c:SetGridCoordinates","MDLIB/Main_DOODZ.c:RunMDOODZ"])
p("C168","The finite strain recorded on a marker is the strain of the motion of the markers",
"The deformation gradient recorded on the markers maps the initial separation of any two markers in a homogeneous flow to their present separation, up to whole widths of a periodic box. This holds exactly, after any number of steps, in simple shear at any rates, time steps and uniform motion, with periodic sides and also for markers that cross them; areas are kept and the recorded shear is the sum of the rates times the steps. In pure shear it is false after the first step already: the markers are moved with a fourth-order scheme and the tensor with a first-order one, and the tensor loses area although the flow has no divergence. With n advection substeps in a step of strain Q the recorded stretches are those of the box, 1 - Q and 1 + Q, less Q^2 / (n - Q) and Q^2 / (n + Q): both too small.",
"all grids, shear rates and time steps of each step, all pairs of markers, any number of steps; for the negation all strain rates and steps that shorten the box by at most half",
"Agreement of two separately updated records over a history of any length; a test of a few steps with a tolerance accepts the first-order error, which accumulates.",
["MDLIB/RheologyParticles.c:DeformationGradient","MDLIB/AdvectionRoutines.c:RogerGuntherII","MDLIB/ParticleRoutines.c:V2P","MDLIB/Main_DOODZ.c:RunMDOODZ"])
p("C169","Dividing a step into advection substeps does not change where things end up",
"When the box moves with the rock and a time step is divided into equal advection substeps, the box at the end of the step is the same for every number of substeps, whatever the velocities; the position of the rock is not. The velocities stay attached to the nodes while the nodes move, so that the rate the markers see grows from one substep to the next in a body that is shortened: a marker between the final places of the side walls is kept through all substeps and its distance from the middle is multiplied by a product that depends on their number. Whatever the number, such a marker ends up nearer to the middle, relative to the wall, than it was, by at most a part 2 (strain of the step)^2 / (number of substeps), and rock on a side wall is lost.",
"all grids, velocity and tag arrays, boxes, time steps and numbers of substeps for the box; for the rock all pure shear flows without air that shorten the box by at most half in the step, all markers between the final side walls, any number of substeps",
"The number of substeps is chosen at run time from the Courant number and may be anything; a test compares two particular numbers on one mesh and hides the first-order difference in its tolerance.",
["MDLIB/Main_DOODZ.c:RunMDOODZ","MDLIB/AdvectionRoutines.c:PureShearALE","MDLIB/AdvectionRoutines.c:RogerGuntherII","MDLIB/ParticleRoutines.c:V2P"])
p("C170","Accumulated strain is strain rate times time, whatever the path and the substeps",
"In a history of homogeneous flows without air, every accumulated strain of a marker (total and per deformation mechanism) grows by exactly the sum of rate times duration over the moments at which the marker was active. It depends neither on the path of the marker, not even in the half cells along the sides where the weights extrapolate, nor on how the grid moves, nor on how the steps are divided into advection substeps.",
"all histories of any number of steps and substeps, grids, rates, paths and markers",
"Any history of any length; a test compares a few steps on a fixed grid and cannot tell an error that depends on the path from rounding.",
["MDLIB/RheologyParticles.c:AccumulatedStrainII","MDLIB/Main_DOODZ.c:RunMDOODZ","MDLIB/AdvectionRoutines.c:PureShearALE"])
p("C171","A box whose sides move with an incompressible flow keeps its area",
"The model box keeps its area when its sides move with a flow that takes in as much as it gives out. This is false: in every step the area changes by minus the square of the relative change of the width, for any such velocities (in particular whenever no cell gains or loses volume), so that over any history it never grows and is smaller than at first as soon as the width is another one. In pure shear the area after any number of steps is the first area times one minus the square of the strain of each step. Of a given total strain the part lost is at most the square of the strain over the number of steps.",
"all grids, incompressible velocity arrays with prescribed sides (or balanced mean side velocities), boxes and time steps; for pure shear all histories of any number of steps",
"Loss that accumulates over a history of any length; one step of a test loses less than its tolerance.",
["MDLIB/AdvectionRoutines.c:PureShearALE","MDLIB/Main_DOODZ.c:RunMDOODZ","MDLIB/Setup.c:SetPureShearBCVx"])
out=os.path.join(os.path.dirname(os.path.abspath(__file__)),"..","properties.jsonl")
with open(out,"w") as f:
    for x in P: f.write(json.dumps(x)+"\n")
print(len(P))
