# Formal model of PetIBM in Lean 4

## Layout

* `lean/Verif/Model/*.lean`  executable definitions that follow the C++ functions; each definition cites file and lines in `/repo`.
* `lean/Verif/Spec/*.lean`   small specifications, written without using the helpers of the model.
* `lean/Verif/Lemmas/*.lean` helper lemmas.
* `lean/Verif/Props/*.lean`  the property theorems (one file per area) with concrete instances of their hypotheses.
* `MANIFEST.json` maps property ids to theorem names. `seeded/LOG.jsonl` records mutation experiments.

## Trusted base

* Lean 4.33.0 kernel; Mathlib; axioms `propext`, `Classical.choice`, `Quot.sound` only.
* The correspondence between the C++ text and the definitions in `Verif/Model` (by reading; file/line cited).
* Facts about third-party libraries that are modelled, not verified: PETSc DMDA ownership ranges and
  AO numbering (rank-major, natural order inside a rank), DMComposite packing, `MatSetValues` ignoring
  negative indices and INSERT/ADD semantics, `MatMult`, HDF5 viewer as a name -> value store, yaml-cpp
  nodes as ordered key/value lists, C++ standard algorithms (`upper_bound`, `partial_sum`, ...).

## What is not modelled

* Floating point: `PetscReal` is an element of an arbitrary linearly ordered field (`Real` where a square root
  is needed). Rounding, NaN, infinities are out of scope.
* Integer overflow: `PetscInt` is `Int`/`Nat`.
* MPI message passing: collectives are pure functions of the list of per-rank values. Logging stages,
  progress messages, GPU code are out of scope.
* Memory: reference counts of the PETSc objects of the solvers are modelled (`Model/Lifetime.lean`); the DMs of mesh and bodies, the contexts of
  the shell matrices and the references of matrices to null spaces are not. Destructors after a failed `init` are not (the applications abort).
* Krylov iterations: a linear solve is any function of matrix, guess and right-hand side; theorems quantify over it or assume
  explicitly that it solves the system. The objects around it (`src/linsolver`) are modelled; the external libraries are arbitrary
  functions that also give the reason for stopping, the number of iterations and the residual.
* SymEngine: user expressions are arbitrary functions.

Undefined behaviour of the C++ code that the model can reach (out-of-range array access) is a distinct result,
never a default value.

## Properties

| id | modelled | how proved |
|----|----------|------------|
| C01 | getNaturalIndex, all branches | bijection by div/mod arithmetic |
| C02 | getNaturalIndex | wrap specification; false at corner ghosts: counterexample theorems plus a partial theorem for one ghost coordinate |
| C03 | debug range check | decision logic |
| C04 | DMDA ownership, AO numbering, offsets loops, getPackedGlobalIndex | prefix-sum invariants, upper_bound characterisation, bijection |
| C05 | same | corollary |
| C06 | createVelocityMesh counts, initDMDA local counts | sum over ranks |
| C07 | createPressureMesh, createVertexMesh on lists | induction on the list of widths |
| C08 | createVelocityMesh, both branches | list lemmas |
| C09 | createVelocityMesh periodic branches | list lemmas |
| C10 | parseMesh .. parseOneSubDomain, stretchGrid | geometric sum, induction on sub-domains |
| C11 | checkPeriodicBC as loops over the table | equivalence with a specification |
| C12 | parseBCs and string maps | fold invariant; operator[] default makes the claim on unknown names false: counterexample and partial |
| C13 | getGhostPointList on one rank, all ranks | partition of index ranges |
| C14 | ghost record, set/update operations | invariant over operation lists |
| C15 | same | invariant over operation lists |
| C16 | convective kernels, initial ghost values | algebra, all states |
| C17 | same | invariant over operation lists |
| C18 | operator< on MatStencil and std::map lookup | strict weak order, map laws |
| C19 | createGradient rows | row formula |
| C20 | createDivergence, createGradient as assembled matrices | entrywise |
| C21 | createDivergence, modifiers, DCorrectionMult | row formula, telescoping sums |
| C22 | createLaplacian, modifiers, LCorrectionMult | row formula |
| C23 | setRowValues | algebra |
| C24 | ConvectionMult2D/3D with scatter and ghost copy | telescoping sums |
| C25 | createDiagMatrix, R, RInv, MHead, M, convert2* | entrywise |
| C26 | createBnHead loop over matrices | induction on the order |
| C27 | delta.cpp over Real | real algebra with sqrt |
| C28 | createDelta row, getEulerianNeighbors | window arithmetic plus C27 |
| C29 | periodic flag and wrapped neighbours | false in the code: counterexamples; partial for non-periodic domains |
| C30 | readLagrangianPoints on token lines with undefined behaviour as outcome | decision logic; oversized files reach undefined behaviour: counterexample and partial |
| C31 | offset loops, getGlobalIndex, getPackedGlobalIndex, findProc | as C04 |
| C32 | calculateAvgForces on all ranks | sum over ranks |
| C33 | updateMeshIdx | upper_bound characterisation |
| C34 | ProbePoint: init, monitorVec, interpolate | algebra, convexity; false behind the last line: counterexample |
| C35 | isPointOnLocalProc, getBLGridlineIndices | partition of ranges; false for the pressure: counterexample and partial |
| C36 | ProbeVolume: getInfo, createGrid, createIS, VecGetSubVector | sortedness, partition |
| C37 | monitorVec state machine | invariant over histories |
| C38 | monitor | decision logic |
| C39 | createTimeIntegration | decision logic |
| C40 | swap loop on the list of explicit terms | invariant over steps |
| C41 | same | first step is inconsistent for Adams-Bashforth: counterexample; partial from step 2 on |
| C42 | advance as linear algebra | algebra with residual |
| C43 | MatZeroRowsColumns, VecSetValue | linear algebra |
| C44 | ibpm, decoupledibpm, rigidkinematics steps | linear algebra with residual |
| C45 | main loop | induction |
| C46 | main loop with file log | induction |
| C47 | solver state, restart file | simulation in both directions; false for convective boundaries: counterexample; partial otherwise |
| C48 | file system as a map | stale file counterexample; partial |
| C49 | zero-padded decimal names | injectivity of decimal representation |
| C50 | loop of the tools | equivalence under nsave | start; counterexample otherwise |
| C51 | calculateVorticity2D/3D with local vectors of every rank | slot arithmetic, algebra; false at corners and between processes on walls: counterexamples and partial |
| C52 | default ownership ranges of velocity and vorticity fields | arithmetic of the ranges |
| C53 | getSettings as map updates | fold lemma |
| C54 | HDF5 store | map laws |
| C55 | E, H construction | transpose algebra |
| C56 | setInitialConditions loops | partition of ranges |
| C57 | CartesianMesh and BoundarySimple construction | existence of the objects and their invariants |
| C58 | same as C24, local vectors of every rank | slot arithmetic, coverage of ghost points; false at process boundaries next to walls: counterexamples |
| C59 | assembleRHSVelocity of the four solvers as an equation per grid point | expansion of the step, levels of the explicit terms |
| C60 | init and advance, all error branches | totality of the operators, error propagation |
| C61 | the matrix A of createOperators | diagonal dominance |
| C62 | DBNG and the right-hand side of the Poisson system | energy argument, rank-nullity, telescoping sums |
| C63 | restart files read with another distribution | index maps; false for the explicit terms: counterexample |
| C64 | updateMeshIdx and createDelta with all array bounds | totality; false for processes without points and periodic ends: counterexamples and partial |
| C65 | init of the three solvers, ioInitialData | refinement to the configured expressions; false for the pressure of the coupled solver |
| C66 | writeVec_HDF5 with the names of the data sets | false for close times: counterexample and partial |
| C67 | monitorProbes with the composite vector | index shift; false for the coupled solver on several processes |
| C68 | probes in a run and its restart | windows; false: counterexamples and partial |
| C69 | getSettings, createDirectory with a file system | decision logic; false if a file sets the keys: counterexample and partial |
| C70 | initVorticityMesh coordinates against the stencils | coordinates of vertices and cells; false for two components in 3D: counterexample, exact shift, partial |
| C71 | main of the vorticity utility | map laws of the files |
| C72 | `CartesianMesh::write`, main of the vorticity utility, createxdmf | map laws of the files, case distinction over names |
| C73 | `OscillatingCylinderSolver` | calculus |
| C74 | `RigidKinematicsSolver::write`, `writeBodies`, `ioInitialData`, `SingleBodyPoints::writeBody` | induction over bodies and steps, injectivity of names |
| C75 | `SingleBodyPoints::writeBody`, `readLagrangianPoints` | round trip |
| C76 | main of the lid-driven cavity example | refinement of the Navier-Stokes solver (simulation relation) |
| C77 | restart of `DecoupledIBPMSolver`, `IBPMSolver` | round trip and simulation; partial as C47 |
| C78 | main, `write`, `writeForcesASCII` of both solvers with bodies | induction over the steps |
| C79 | `BodyPackBase::init`, `createBodyPack`, `createSingleBody` | equivalence with a small description; error half false |
| C80 | parameters read by `NavierStokesSolver::init` | equivalence with a table |
| C81 | the matrices of `createOperators` (all solvers), `createExtraOperators`, `setNullSpace` | weighted inner products, self-adjoint polynomials |
| C82 | `advance`, `createOperators`, convection, restart files for two layouts of one mesh | simulation relation between the two runs, induction on the steps |
| C83 | convection, gradient and Laplacian against the volume-weighted product | summation by parts over the grids, diagonal dominance |
| C84 | `advance` with exact solvers | energy balance of one step, induction on the steps |
| C85 | `createLinSolver`, `LinSolverKSP`, `LinSolverAmgX`, `writeLinSolversInfo`, the four `main` with these objects | refinement: the run with objects is the run with functions; induction on the loop; each object holds its own name, kind and configuration file |
| C86 | `advance` with exact solvers, `setGhostICs`, `updateEqs`, `updateGhostValues` on a flow at rest in time | invariant by strong induction on the steps, uniqueness of both systems |
| C87 | main of the oscillating cylinder, `RigidKinematicsSolver` | induction over the steps; round trip and simulation; partial (motions that are functions of time; otherwise as C77) |
| C88 | `createDelta`, decoupled and coupled solver and prescribed motion for two layouts of one mesh and two distributions of the bodies | simulation relation between the two runs, induction on the steps; partial (points of a body in cells of the same widths, restarts with one body; otherwise as C82) |
| C89 | `createMesh`, `CartesianMesh::init`, `createBoundary`, `BoundarySimple::init` from the sections of the file to the objects of the run | composition of the parser, mesh and boundary theorems up to the complete run; necessity by cases on the error branches; partial (wrong configurations that are not reported) |
| C90 | main of `writemesh`, `CartesianMesh::write` | composition of C89, the lines of one direction and the file model; independence by equality of all inputs of the writer |
| C91 | `IBPMSolver::advance` with exact solvers | the composite divergence is the weighted transpose of the composite gradient, so the reaction does no work; then as C84 |
| C92 | `DecoupledIBPMSolver::advance` with exact solvers | without viscosity the step is a composition of two projections; identity of the energies, induction on the steps |
| C93 | force system, composite system, runs of the three solvers with bodies | range of a product transpose · definite · matrix by ranks (duality); induction on the steps |
| C94 | three equal levels of a run of each of the four solvers | C59, C42, C44 and the kernels of the ghost equations, without induction |
| C95 | bounds of the intermediate velocity of each of the four solvers | C59, C14–C16 and a maximum principle for second differences on the grid |
| C96 | createProbe, the init functions of the probes, loop over `probes` | reading of the entries, C36; false for unknown names and files that cannot be created |
| C97 | all probes of a run and their files | induction over the steps and the probes, C34, C37; false for files that are shared |
| C98 | a configuration and a run in two systems of units | every operator of the one run is a multiple of that of the other; induction over the steps |
| C99 | a configuration and a run with two origins of coordinates and two initial times | coordinates enter only as differences; equality of whole programs, errors and files included, by induction over the loop |
| C100 | `main` of petibm-vorticity over all steps, with the objects it keeps | objects after a pass do what new ones do: every assignment is repeated by the next pass; induction over the loop; separate names of files |
| C101 | a step of each of the four solvers, summed over all points of a component with their volumes | convection, diffusion and pressure are sums of differences of fluxes and sum to zero; C55 for the reported forces; induction over the steps |
| C102 | runs of two configurations on two meshes that a permutation and mirroring of axes maps to each other | every operator commutes with the map of points and components (C19, C21, C22, C58 on both sides); unique solutions (C61, C62); induction over the steps |
| C103 | the maps of src/misc/type.cpp as mutable objects, converters of src/parser/parser.cpp (not the one for `PetscBool`) | induction over look-ups |
| C104 | `advance` with exact solvers on a linear shear flow between two sides: ghost values and coordinates of the sides, Laplacian, convection, initial conditions | instance of C86 for a family of flows; exactness of three-point differences and ghost values on linear profiles |
| C105 | `advance` with exact solvers in two and in three dimensions (both branches of the kernels, the dummy third axis), initial conditions, ghost points | simulation: the three-dimensional run carries the two-dimensional one in every layer; divergences are multiplied by the height of the layer |
| C106 | `advance` with exact solvers and no explicit convective terms: ghost points of all types, modifiers, diffusive terms, both linear systems, initial conditions | three runs in step: a relation "third = a first + b second" kept by every operation; uniqueness of the solutions of both systems; with C84 the energy of a difference is bounded; with bodies: solutions of the force system differ by forces that spread to zero, those of the composite system by vectors whose composite gradient is zero |
| C107 | `advance` with any exact solvers, `setNullSpace` for both types of solvers, restarts; the solvers with bodies at rest and in prescribed motion | two runs in step: uniqueness of the velocity (C61), of the pressure up to a constant (C62, C43), which neither gradient nor projection see; of the forces up to such that spread to zero, which neither the velocity nor the right-hand sides see; coupled: solutions of the composite system differ by vectors whose composite gradient is zero (C81) |
| C108 | matrix of the velocity system, `advance` with a solver that leaves a residual | the matrix is diagonally dominant by `1/dt` (C23); largest component of the error |
| C109 | createInfoString and printInfo of mesh, bodies, solution and linear solvers, `io::print` with `printf` and the order of the ranks | the printed text is read back by a reader of lines and ranges; ranges are the blocks of the distribution |
| C110 | creation, references and release of the PETSc objects of the four solvers: init, createOperators, createVectors, setNullSpace, moveBodies, write, destroy, createBn(Head); probes | reference counts; programs of arbitrary length; nothing left, bounded number of objects |

## Findings: claims that are false of the unchanged code

Each finding has a theorem named `Cnn_false_…` with a concrete witness; the positive theorem that remains is named
`…_partial` and states what is excluded.

* C110: `createBn` with two matrices does not release its vector `MDiagInv` (`C110_false_createBn`; no application calls it). `IBPMSolver::destroy` cannot be
  called twice: `VecResetArray(P)` then gets a null pointer (`C110_false_coupled_again`, after every run); the destructor calls `destroy` again, but in the
  applications only after `PetscFinalize`, where it returns before. The other solvers allow it. A probe that is dropped without `destroy` keeps its index sets, because
  the destructor of the base class cannot reach the members of the derived class (`C110_false_probe_destructor`); the solvers call `destroy`. A finite check on lists of variables is proved sound for
  all memories; orders of BN and numbers of steps are handled by induction, the finitely many solver kinds and schemes by evaluation of the check.
* C109: `io::print` passes the text as the format of `PetscSynchronizedPrintf`, so a percent sign in the name of a body or of its file reads arguments
  that do not exist, or is dropped (`C109_false_percent`; for every such name the printed text is not the prepared one, `C109_percent`). The linear
  solvers and the time integration print with the format `%s` and are right (`C109_solver`). In the model a conversion without argument is undefined
  behaviour; real numbers are printed by an arbitrary function without the special characters.
* C96: the maps `str2ProbeType`, `str2fd` and `str2dir` are read with `operator[]`, so an unknown type is a point probe, an unknown field is `u`
  and an unknown direction is `x` (`C96_unknown_type`, `C96_unknown_field`, `C96_unknown_direction`; witness: a probe of the field `pressure` records
  `u`). For an unknown viewer the pointer that is compared was never set (`C96_unknown_viewer`). The constructors drop the error code of `init`: if
  the file cannot be created, the solver starts with an incomplete object (`C96_unopened`), and the first step that is due follows its null pointer
  (`C97_unopened`).
* C97: each probe creates its file anew. Of two probes with one path only the grid of the second one remains, and the outputs of both follow one
  another without a mark (`C97_false_shared_file`). A point probe outside of the lines of its velocity component writes nothing, ever
  (`C97_outside`).
* C95: the bounds of the old velocity do not carry over to the intermediate velocity if diffusion is explicit and the time step large
  (`C95_false_explicit_diffusion`: velocities at most two in a closed box at rest, an intermediate velocity above two). The general bound
  `C95_step_partial` has the explicit terms in it, `C95_diffusion_partial` the condition on the time step.
* C94: false if an implicit scheme is chosen for the convective terms (`C94_false_implicit_convection`). `createTimeIntegration` accepts
  EULER_IMPLICIT and CRANK_NICOLSON for them, but no solver has an implicit part of the convective terms, so that they are missing or have
  half of their weight. A vortex in a closed box that should convect itself stays as it is. `C94_converged_partial` has the weight.
* C93: false for the coupled solver if the points close a channel (`C93_false_blocked`): the prescribed fluxes cancel, but no velocity
  satisfies all constraints, and the first step fails whatever the solvers, unless the Poisson solver returns something that is not a
  solution. The decoupled solver goes on in this case (`C93_decoupled_runs_partial`), because it enforces one constraint after the other.
  With prescribed motion a run stops if two points meet with different velocities (`C93_false_collision`): the force system has no solution.
  `C93_moving_runs_partial` says for which motions this happens.
* C89: the constructors of `CartesianMesh` and `BoundarySimple` call `init` and ignore its error code. PETSc prints a message, but `createMesh` and
  `createBoundary` return success with an object that is half initialised. For a missing condition the first use of the boundary object follows empty
  pointers (`C89_missing_entry`); periodic conditions that do not agree and missing sections leave an incomplete mesh (`C89_inconsistent`,
  `C89_missing_section`); ends that decrease are accepted and give cells of negative width (`C89_false_errors`).
* C02: ghost points outside the grid in two directions at once are not translated to the periodic image or to -1
  consistently.
* C12: unknown names of boundary types, locations and fields are accepted silently (`operator[]` of a map inserts a
  default).
* C19: a periodic direction with a single cell: both pressures of a gradient row are the same unknown, INSERT overwrites.
  (The statement of C19 excludes this case.)
* C21: the same for the divergence. (C20 holds even then: the two matrices lose corresponding entries.) C62: a constant pressure is
  then not in the null space of the Poisson matrix.
* C62: with the second-order approximate inverse (`BN: 2`) the Poisson matrix can be more singular than the constants, depending on
  viscosity and time step (`C62_false_second_order`; for odd orders and for small steps it is not); with a NEUMANN condition for a normal component right-hand sides that sum to
  zero need not have a solution (`C62_false_neumann`).
* C22: a periodic direction with two cells: both neighbours of a Laplacian row are the same unknown, INSERT overwrites.
* C42, C44: as a consequence of C21, on a mesh with one cell in a periodic direction a divergence-free shear flow is not divergence free after
  a step whose systems are solved exactly (`C42_false_single_periodic_cell`, `C44_false_single_periodic_cell` and
  `C44_false_single_periodic_cell_decoupled` with a body).
* C101: as a consequence of C22, on a torus with two cells per direction the momentum changes in a step (`C101_false_two_periodic_cells`).
* C59: as a consequence of C22, on a mesh with two cells per periodic direction a constant flow is decelerated by viscosity
  (`C59_false_two_periodic_cells`).
* C23, C61: with one periodic cell the neighbours overwrite the diagonal of the Laplacian, which becomes positive; the velocity matrix
  can then be zero (`C61_false_single_periodic_cell`).
* C56: the number of initial velocity expressions is not checked; more than four are written out of bounds, fewer than the
  number of components calls an uninitialised visitor (`C56_unchecked_count`).
* C24, C58: the ghost value of the normal velocity at a wall is copied only into the local vector of the process that owns the
  neighbouring point. A process whose lines end there (or the periodic boundary ends there, even with one process) needs the
  next ghost value and finds the initial zero. Uniform flow then has a non-zero convective term.
  `C58_convection_of_seen` says what is computed at every point without exception (the field with zeros where the process has no
  value); with walls whose normal velocity is zero this is the field itself (`C58_closed_walls`, `C24_momentum_balance_closed`, C59).

* C41: the first step of a run with ADAMS_BASHFORTH_2 uses weight 3/2 for the only term available and -1/2 for a zero vector, so
  the weights do not sum to one. Implicit schemes for the convective terms (EULER_IMPLICIT, CRANK_NICOLSON) are accepted, but the
  implicit part is never assembled: the convective terms have total weight 0 or 1/2.
* C81: the matrix of the velocity system is not symmetric on meshes that are not uniform (`C81_false_stretched`), the Poisson matrix not
  with a NEUMANN condition for a normal component (`C81_false_neumann`), and it is indefinite with `BN: 2` and large steps
  (`C81_false_second_order`), while conjugate gradients are the default for all systems.
* C82: with fluid passing through the walls the velocity depends on the number of processes already after one step
  (`C82_false_open_walls`), because a process does not have the wall velocities next to the seam. A restart with another number of
  processes is wrong for ADAMS_BASHFORTH_2 (`C82_false_restart`): the explicit terms are saved in the order of the unknowns.
* C83: on stretched meshes the convective term does work on a divergence-free velocity (`C83_false_stretched`), because the velocities
  at the faces are plain means.
* C84: false for EULER_EXPLICIT diffusion with a large time step (`C84_false_explicit_diffusion`) and for the explicit convective terms
  without viscosity (`C84_false_convection`). The exact balance of a step is `C84_balance_partial`.
* C88: `createDelta` takes the widths of the delta function from the cell of the first local point of a body (`createdelta.cpp` 71-77), so on a stretched
  mesh they depend on the number of processes, and so does the velocity after one step (`C88_false_stretched`). The Lagrangian forces are saved in the
  order of the packed vector, process by process: with several bodies, a restart with another number of processes gives the forces to other points
  (`C88_false_restart`); with one body the order does not depend on the processes (`C88_continued_partial`,
  `C88_coupled_continued_partial`).
* C87: the positions of moving bodies are not part of the restart data; a fresh solver starts with the points of the body files. With a motion that
  computes the new positions from the current ones, a restarted run has the bodies, and the forces, in the wrong place (`C87_false_incremental`);
  for motions that are functions of time, such as the oscillating cylinder (`oscillation_follows`), the restart is exact (`C87_restart_partial`).
* C86: a flow that satisfies the discretised equations is disturbed by the first step if a term that does not vanish is integrated with
  Adams-Bashforth, because the first step gives it the weight 3/2 (`C86_false_first_step`: fluid pressed through a box with a moving lid).
  A uniform oblique flow through the walls does not stay uniform with two processes (`C86_false_processes`; the cause is that of C82).
* C85: a configuration file that cannot be read is not an error: the constructor drops the error code of `init`, so that the member `ksp` stays
  uninitialised and the first use of the solver is undefined (`C85_false_missing_file`).
* C43: if a wall has a NEUMANN condition for its normal component, the rows of the cells at this wall decouple from the other
  cells; pinning one pressure value then changes the velocity. Where the walls prescribe the normal velocity and the fluxes cancel, every run with the
  pinned system, of any of the four solvers, is state by state a run with the unpinned system (`C43_same_run_partial` and the theorems after it in
  `Props/Pinned.lean`); the results on energy, convergence and symmetry are carried over in this way.
* C46: `nsave = 0` or `nrestart = 0` is a remainder by zero (modelled as undefined behaviour, `C46_zero_period`).
* C47: convective boundaries: the ghost values are state but not in the restart file, and `setGhostICs` resets them. The last
  pressure increment, the initial guess of the next Poisson solve, is not saved either.
* C48: in a step that saves restart data only, an older file of this step is kept and gets the new explicit terms next to the old
  solution.
* C50: the ranges of the post-processing tools: with a start that is not a multiple of `nsave`, the tools ask for files that do not
  exist and skip those that do; with a non-positive step the loops do not end; negative steps have different file names.
* C63: explicit terms are written in packed order, which depends on the number of processes; a restart with another number of
  processes permutes them silently.

* C29: `createDelta` looks up the boundary `d` of the x-component to see whether direction `d` is periodic, but the boundaries come
  in pairs: y is treated like x and z like y (`C29_false_flag`). Where a direction is treated as periodic, a point in one of the
  first cells makes `getEulerianNeighbors` read in front of the coordinate array (`C29_false_ub`); the ghost coordinate that does
  exist is shifted by the period although it already is the position of the image, so the wrapped point gets weight zero
  (`C29_false_distance`) and a constant is not interpolated to itself (`C29_false_interpolation`). What the
  code does in all periodic windows that it can read is `C29_periodic_window_partial`; beyond them it reads outside of the arrays
  (`C29_false_ub`, `C29_false_ub_right`).
* C64: besides the read of C29, a process that owns no point of a body reads `meshIdx[0]` of an empty array
  (`C64_false_no_points`, `C64_false_witness`); this happens whenever a body has fewer points than there are processes.
  Periodic meshes are covered for bodies that keep a window of velocity points to every end (`Spec.WindowInside`). `Props/BodyStart.lean` concludes
  that the three solvers with bodies are initialised without error under these conditions (`C64_decoupled_start_partial` and so on).
* C30: `readLagrangianPoints` writes one more point for every line that follows, without comparing with the count: a trailing
  blank line, the count 0 or a count that is too small lead to an out-of-bounds access (`C30_false_overflow`). Text behind the
  coordinates of the first line and a file that holds only a count without newline are accepted (`C30_false_accepted`). An error of
  the reader is dropped by the constructor of the body, later calls read uninitialised members (`C30_false_reported`,
  `C30_false_program`).
* C65: `IBPMSolver::createVectors` runs after `setInitialConditions`, exchanges the pressure vector by a new one and frees the
  old values: the coupled solver starts with zero pressure whatever the configuration says (`C65_false_pressure`).
* C34: a point between the last grid line of a velocity component and the wall (or between the last line of the tangential direction
  and the wall) is claimed by a process, and the value is interpolated with a ghost value of the local vector that is never set:
  a constant field 1 is reported as 5/6 (`C34_false_behind_last_line`). Between the wall and the first line no process claims the
  point and nothing is printed (`C35_outside`).
* C35: `isPointOnLocalProc` reads `coord[3][d][n]`, but the pressure mesh has no ghost lines. On one process every pressure probe
  between the first and the last line reads out of bounds (`C35_false_pressure_one_process`, `C35_pressure_undefined`).
* C66: the data sets of an HDF5 probe are named by `std::to_string(t)` with six decimals; outputs that are closer than a millionth
  overwrite each other (`C66_false_close_times`).
* C67: in the coupled solver `solution->pGlobal` is the composite vector when the probes run; volume probes of the pressure use the
  pressure numbering in it and report forces or pressures of other points on all processes behind one with body points
  (`C67_false_coupled`; `C67_coupled_shift` gives the exact shift).
* C68: sums of unfinished windows are not saved, and the output file is opened for writing again (`C68_false_window`,
  `C68_false_overwritten`).

* C51: the ghost points beyond the corners (edges in 3D) of the domain are never set, and a process sets ghost points only next to its own
  velocity points. The vorticity at corners, and on walls at the last line of a process, is computed with zeros: uniform flow
  has non-zero vorticity there (`C51_false_corner`, `C51_false_seam`).
* C69: a top-level key `output`, `logs` or `directory` in one of the YAML files replaces the value from the command line after the
  directories have been created: the directory used need not exist (`C69_false_overridden`).
* C70: in 3D, `calculateVorticity3D` reads `i - 1` for the x component and `j - 1` for the y component although these directions count
  cells: the values saved for a cell are those of the cell before (`C70_false_x`, `C70_shifted`), the first cell uses ghost
  points and the last cell is never used.
* C72: every start of a solver, also a restart, writes `grid.h5` anew; the coordinates that the vorticity utility had appended are gone
  until it is run again, and the XDMF files of the vorticity refer to them (`C72_false_after_restart`).
* C74: a solver with prescribed motion that is restarted writes the points as read from the body files (time 0) over the points that the
  first run has saved for this step (`C74_false_restart`); two bodies with the same name share one file (`C74_false_same_name`).
* C75: the files with the points of moving bodies have no first line with the number of points and can never be read as body
  (`C75_false_read_back`); with this line they can (`C75_with_count_partial`).
* C76: the loop of the lid-driven cavity example runs from 0 to 2000 inclusive, so `0002000.h5` holds the fields after 2001 steps, not
  after 2000 as its README says (`C76_false_steps`); everything else agrees with the solver (`C76_steps_partial`).
* C79: without the key "bodies", without a file or with an unknown type, `createBodyPack` returns no error (`C79_false_reported`).
* C77: as C47, with a convective boundary the steps after a restart with bodies differ (`C77_false_convective`).

Further observations without theorem: the constructors of `BoundarySimple`, `SingleBoundaryBase` and `CartesianMesh` call
`init` and drop its error code, so errors inside `init` leave a half-initialised object; the model returns the error.
`SingleBodyPoints::readBody` ignores its argument and reads the file of the member `filePath`.

## Remarks on the operators

`Spec.Constructed` states that the layout, the coordinates and the boundary objects are those that the constructors
produce; `C57_construction` proves that it is reachable for every valid configuration. The operators are built after
`setGhostICs` (as in `NavierStokesSolver::init`), which is the hypothesis `Initialised h`; all later histories of updates
are quantified over (`h ++ h'`). `Spec.Extended` is the velocity extended by one layer with the current ghost equations.

## Remarks on files and initial conditions

A file is a map from data set names to lists of numbers with the `time` attribute (`H5File`), the disk a map from paths to
files. Vectors of a DMDA are written in natural order (PETSc's HDF5 viewer), all other vectors in the order of their global
indices; this is an assumption on PETSc. The fields written with one distribution over processes are read back correctly with
any other distribution of the same mesh (`C54_solution_round_trip`).

## Remarks on the solver

`Model/NavierStokes.lean` follows `navierstokes.cpp` function by function. A linear solver is an arbitrary function from matrix,
initial guess and right-hand side to a vector or an error; theorems that need more say so (`Spec.Solves`: what it returns is a
solution; `Spec.Finds`: it returns a solution if there is one; `Spec.IgnoresGuess`). `Spec.Started` is a solver after `init` and
`ioInitialData`; `Spec.Trajectory` a sequence of states related by `advance`. The main loop has a fuel argument; `C45_run` shows
that `nt` units of fuel suffice, so it is no restriction. Log files, solver statistics and probes are not part of `writeStep`.
The state of a restarted run is compared with `Spec.SameFlow`. The theorems on single steps
(C41, C59, C84, C91, C92, C94, C95) also cover restarts, from any file: `Spec.Remembers` says that the explicit terms a step uses belong to
steps of the run itself. This leaves out the first step of a restart with ADAMS_BASHFORTH_2, which takes its older term from the file; by
`C47_one_run_partial` a restart from the file of a run continues the trajectory of this run, so that the theorems hold for this step too.
 `Model/Cavity.lean` has the lid-driven cavity example.
`Model/IbpmRun.lean` has the main loops of the solvers with bodies and the text file of forces. That file is emptied in `init`, before
the restart data are read: a second restart from the same step loses the lines of the first one, also if it then fails. 

`Model/PostProcess.lean` has the step ranges and file names of the tools `petibm-vorticity` and `petibm-createxdmf`. `Model/Xdmf.lean`
has the grid file and, instead of the text of the XDMF files, the files, data sets and sizes that they refer to.

* C102: `Spec.Turn` is a permutation of the axes with orientations, and `Spec.Turned` relates the two configurations (`mirrored` axes, sides,
  conditions with signs; the speed of a convective boundary is measured along its axis). `C102_axes_partial` compares the two runs, which may
  use different process grids, and `C102_symmetry_partial` is the case of one configuration that is its own picture; there the pressure has the
  symmetry without a constant. Missing: periodic axes of opposite orientation (the velocity points on a periodic axis are the upper faces of
  the cells, so a mirrored axis stores other faces), walls that the convective terms do not know (C82), restarts, the pinned cell of the
  other Poisson solver (it is another cell of the fluid after a turn), fewer than three cells in a periodic direction (C22).
* C101: `Spec.FreeAlong` is the hypothesis on the sides: periodic in the direction of the momentum, and slip walls (normal velocity zero,
  tangential derivative zero) in the other non-periodic directions. `Spec.momentum` is the sum of the velocities of one component with the volumes of
  their cells. The theorems with `reported` use the assumptions of C55 on the place of the bodies.
* C100 is about `main` of `petibm-vorticity` as a loop over files. `C100_independent` has no hypothesis on the files; `C100_files`, `C100_unreadable`
  and `C100_again` need a positive increment and a first step that is not negative (names of negative steps could coincide with others). What the values
  mean is the subject of C51 and C70. `C100_after_run` needs a start step that is a multiple of `nsave`; for others `C50_false_offset` applies.
* C99 has no hypothesis on the run: `C99_run`, `C99_run_decoupled`, `C99_run_coupled` and `C99_run_moving` are equations between the results of the
  two whole programs, whether these end, fail or go on. The code evaluates the initial conditions at time zero whatever the entry `t` is
  (`solutionsimple.cpp`), so `Origin.expr` moves the place and not the time. The files of forces print the time, so they are compared for equal
  times only; the files of moving bodies print coordinates and are not compared. On a plane mesh the vector has no third component
  (`h0`), because the code keeps the unused direction at fixed coordinates.
* C98 is a statement on the whole Navier-Stokes solver: `Scales.axis`, `Scales.condition`, `Scales.flow` and `Scales.params` say what is written in
  the configuration, `InUnits` what is compared. `Scales.geom` is not an assumption on the code: the theorem shows that it is the geometry of the
  converted axes (`Setup`). The missing third direction of a plane mesh keeps its width 1. The linear solvers must not depend on factors
  (`UnitFree`; a solver with an absolute tolerance does); the matrix with a pinned cell has one row without a factor, which `RowFree` covers.
  With bodies, the kernel must be a multiple of itself in other lengths (`KernelFree`; `C98_kernels` proves it of the two kernels of the code). The
  composite system of the coupled solver has two kinds of unknowns and equations with different units, so its solver must not depend on factors of
  single rows and columns (`DiagFree`).

## Remarks on the bodies

`Model/Kernel.lean` has the two regularised delta functions over the real numbers. `Model/BodyFile.lean` reads a body file as a
list of lines with a flag for a missing last newline; reading numbers from text is a parameter (`Reader`) with the few laws of
`operator>>` that are used, and `decimalReader` is an instance. `Model/Body.lean` has the bodies, their distribution over
processes, the packed Lagrangian index, the background cells and the averaged forces. `Model/Delta.lean` has `createDelta`.

* `createDelta` takes the widths for the kernel from the cell of the first local point of the body and from the x-component, so
  C28 assumes the grid to be uniform around all points of the body, as the code itself does.

## Remarks on the solvers with bodies

`Model/Ibpm.lean` has the decoupled solver, the solver with prescribed motion (the user's motion is a parameter) and the coupled
solver. The numbering of `MatCreateNest` (per process: first the rows of the first block, then those of the second) is an
assumption on PETSc (`nestSplit`, `nestPos`). The statements of C44 and C55 use `Spec.interpolated` and `Spec.spread`, which are
written with the delta operator and the volumes of the cells, not with the matrices of the solvers.

* The slip of the decoupled solvers after the projection is not zero; C44 says that it is the interpolated pressure correction.
* C44 for the coupled solver with a pinned pressure needs a cell on process 0 (`hpin`): the pinned row is row 0 of the composite
  system, which belongs to a body if process 0 has no cell.
* `C55_total_force` and `C28_constraint` have the assumptions of C28 (uniform grid around the bodies, away from the ends).

`Model/Motion.lean` has what the solver with prescribed motion writes and the oscillating cylinder of the examples (over the real
numbers). Printing numbers is a parameter. `runRigid` in `Model/IbpmRun.lean` is `main` of this example for any motion.

## Remarks on the probes

`Model/Probe.lean` has point and volume probes, `Model/ProbeRun.lean` what the solvers hand to them and the data sets.
`Model/ProbeConfig.lean` has the entries of `probes` (a YAML map as a record of optional values), the objects on all processes, the files and all
probes of a run. A file is a list of printed blocks (ASCII) or the vectors, the index set and the data sets by group and name (HDF5). Not
represented: `destroy`, the digits that are printed, the buffers of the C library (they matter only if two probes share a file), opening an
existing file of the other format, and which processes wait when one of them cannot open a file.
`Verif/Spec/Probe.lean` says what an interpolated value, a selection of points and a recorded output have to satisfy.

* `lower_bound` and `upper_bound` are prefix counts, as on sorted input; the grid lines are sorted (proved).
* The ASCII formats and the attribute `count` of HDF5 data sets are not represented; `toMicro` represents the six decimals of
  `std::to_string`.
* Point probes in the coupled solver hand a vector of the wrong size to `DMGlobalToLocal`; whether PETSc notices depends on how it
  was configured, so C67 speaks about volume probes only.
* `C35_outside` and `C36_swapped_box` are the complements: points that no process claims, boxes that throw.
