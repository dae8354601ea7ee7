{"id": "C01", "title": "Grid-point numbering is a bijection", "statement": "For every field and every mesh size, asking the mesh for the natural index of the grid points (i,j,k) inside the grid gives every integer in [0, nx*ny*nz) exactly once.", "quantifier": "all mesh sizes nx,ny,nz >= 1 (2D and 3D), all in-range grid points", "why_tests_cant": "a test samples finitely many mesh sizes; a collision may appear only for some anisotropic size", "anchors": ["src/mesh/cartesianmesh.cpp:CartesianMesh::getNaturalIndex"]}
{"id": "C02", "title": "Ghost stencils map to the periodic image, or to -1", "statement": "Asking for the natural index of a stencil one layer outside the grid gives the index of the point obtained by wrapping every periodic coordinate, and -1 as soon as one out-of-grid coordinate belongs to a non-periodic direction.", "quantifier": "all mesh sizes, all combinations of periodic directions, all stencils in [-1,n]^3", "why_tests_cant": "the number of combinations of mesh size, periodicity and ghost position is unbounded; corner ghosts are not exercised by the unit tests", "anchors": ["src/mesh/cartesianmesh.cpp:CartesianMesh::getNaturalIndex"]}
{"id": "C03", "title": "Stencils further than one layer outside the grid are rejected", "statement": "In a debug build, the index query returns an error exactly for stencils with a coordinate < -1 or > n; every accepted stencil returns a value.", "quantifier": "all mesh sizes and all integer stencils", "why_tests_cant": "all integers outside the range must be rejected", "anchors": ["src/mesh/cartesianmesh.cpp:CartesianMesh::getNaturalIndex"]}
{"id": "C04", "title": "Packed velocity numbering is a bijection for every process layout", "statement": "For any number of processes and any distribution of the grid lines over the processes, the packed global index maps the pairs (velocity component, grid point) one to one onto [0, UN); the rows owned by one process form one contiguous block, ordered by rank, and inside the block the components are stored one after the other.", "quantifier": "all process grids, all ownership ranges (including empty ones), all mesh sizes, dim 2 and 3", "why_tests_cant": "needs every process count and every partition; tests run with one or two ranks", "anchors": ["src/mesh/cartesianmesh.cpp:CartesianMesh::getPackedGlobalIndex", "src/mesh/cartesianmesh.cpp:CartesianMesh::initDMDA", "src/mesh/cartesianmesh.cpp:CartesianMesh::getGlobalIndex"]}
{"id": "C05", "title": "Outside points stay outside through all index translations", "statement": "A stencil that has no natural index (-1) also has global index -1 and packed index -1, and no in-grid point ever gets -1 from any of the three queries.", "quantifier": "all meshes, partitions, fields, stencils", "why_tests_cant": "every layout would have to be enumerated; matrix assembly silently drops rows/columns with index -1, so a wrong -1 drops physics without an error", "anchors": ["src/mesh/cartesianmesh.cpp:CartesianMesh::getPackedGlobalIndex", "src/mesh/cartesianmesh.cpp:CartesianMesh::getGlobalIndex"]}
{"id": "C06", "title": "Advertised numbers of unknowns", "statement": "The number of velocity unknowns equals the sum over components of the product of the per-direction counts; a component has one point fewer than cells in its own direction when that direction is not periodic, the same number when periodic, and the local counts of all processes sum to the global counts.", "quantifier": "all meshes, periodicities and partitions", "why_tests_cant": "every mesh size and process count", "anchors": ["src/mesh/cartesianmesh.cpp:CartesianMesh::createVelocityMesh", "src/mesh/cartesianmesh.cpp:CartesianMesh::initDMDA"]}
{"id": "C07", "title": "Cells tile the domain", "statement": "The vertex coordinates start at the domain start, end at the domain end, increase strictly, consecutive vertices differ by the cell width, and every pressure point is the midpoint of its two vertices.", "quantifier": "all lists of positive cell widths and all domain starts", "why_tests_cant": "every list of widths, any length", "anchors": ["src/mesh/cartesianmesh.cpp:CartesianMesh::createPressureMesh", "src/mesh/cartesianmesh.cpp:CartesianMesh::createVertexMesh"]}
{"id": "C08", "title": "Staggered velocity points and widths", "statement": "In its own direction a velocity point sits on the vertex between two pressure points, its width is the distance between these pressure points; in the other directions it shares coordinates and widths with the pressure points. Ghost coordinates are present on both sides, the coordinates including ghosts increase strictly.", "quantifier": "all cell-width lists with at least two cells, periodic or not, both kinds of direction", "why_tests_cant": "every width list; indices shifted by one ghost are the classical off-by-one", "anchors": ["src/mesh/cartesianmesh.cpp:CartesianMesh::createVelocityMesh"]}
{"id": "C09", "title": "Periodic images are consistent", "statement": "In a periodic direction the ghost coordinate/width on one side is exactly the one of the wrapped point on the other side shifted by one domain length.", "quantifier": "all width lists, all start points, all periodic directions", "why_tests_cant": "every mesh", "anchors": ["src/mesh/cartesianmesh.cpp:CartesianMesh::createVelocityMesh"]}
{"id": "C10", "title": "Sub-domains produce the requested grid", "statement": "For each axis the number of cells is the sum of the sub-domain cell counts, the widths of the cells of a sub-domain add up to its length, neighbouring cells in a sub-domain have the requested stretching ratio, and widths are positive for increasing end points and positive ratio; the order of axes in the file does not matter.", "quantifier": "all axis descriptions: any number of sub-domains, cell counts >=1, any stretch ratio > 0", "why_tests_cant": "the stretching ratio and the count are unbounded; ratio one is a removable singularity handled by a tolerance", "anchors": ["src/parser/parser.cpp:parseOneSubDomain", "src/parser/parser.cpp:parseSubDomains", "src/parser/parser.cpp:parseMesh", "include/petibm/misc.h:stretchGrid"]}
{"id": "C11", "title": "Inconsistent periodic boundary conditions are rejected, consistent ones accepted", "statement": "The configuration is accepted exactly when, in every direction, either all velocity components are periodic on both sides or none is periodic on any side; the resulting periodic flags say which directions are periodic.", "quantifier": "all boundary-condition tables (5 types at 6 locations for 3 components)", "why_tests_cant": "5^18 tables", "anchors": ["src/misc/misc.cpp:checkPeriodicBC"]}
{"id": "C12", "title": "Boundary-condition parsing keeps what the user wrote", "statement": "Each (location, component) entry of the YAML list ends up in the table at that location and component, the last entry wins, and every other slot stays \"no BC\"; unknown names never change a slot the user did not name.", "quantifier": "all lists of boundary entries", "why_tests_cant": "arbitrary lists and arbitrary strings", "anchors": ["src/parser/parser.cpp:parseBCs", "src/misc/type.cpp:str2bt", "src/misc/type.cpp:str2bl", "src/misc/type.cpp:str2fd"]}
{"id": "C13", "title": "Every boundary ghost point is registered exactly once", "statement": "For each non-periodic boundary and velocity component, the ghost points registered by all processes together are exactly the points one layer outside that face (no corners), each by exactly one process, and each is paired with the in-grid neighbour across the face.", "quantifier": "all meshes, all partitions, all faces", "why_tests_cant": "every partition and mesh size", "anchors": ["src/misc/misc.cpp:getGhostPointList", "src/misc/misc.cpp:getGhostTargetStencil", "src/misc/misc.cpp:checkBoundaryProc"]}
{"id": "C14", "title": "Dirichlet boundaries hold at every time", "statement": "After the ghost initialisation and after any sequence of equation updates and ghost updates with any velocities, the boundary value (ghost itself for the normal component, mean of ghost and neighbour otherwise) equals the prescribed value whenever ghost values have just been refreshed.", "quantifier": "all histories of set/update calls, all velocity fields", "why_tests_cant": "unbounded histories and real values", "anchors": ["src/boundary/singleboundarydirichlet.cpp:SingleBoundaryDirichlet", "src/boundary/singleboundary.cpp:createSingleBoundary"]}
{"id": "C15", "title": "Neumann boundaries hold at every time", "statement": "Under the same histories, (ghost - neighbour) divided by the signed distance equals the prescribed derivative.", "quantifier": "all histories of set/update calls, all velocity fields, both sides of the domain", "why_tests_cant": "unbounded histories and real values", "anchors": ["src/boundary/singleboundaryneumann.cpp:SingleBoundaryNeumann"]}
{"id": "C16", "title": "Convective outflow advances the boundary value with the advection equation", "statement": "One equation update followed by a ghost refresh advances the boundary value (ghost for the normal component, average otherwise) by -dt*c*(ghost - neighbour)/(signed axis distance from neighbour to ghost), where c is the prescribed speed along the positive axis, for every previous state. Directly after setGhostICs the ghost value is the value of the neighbouring point, so the boundary starts from the initial velocity.", "quantifier": "all previous ghost states, velocities, dt, convection speeds, both sides", "why_tests_cant": "real-valued state space and unbounded histories", "anchors": ["src/boundary/singleboundaryconvective.cpp:kernelConvectiveSameDir", "src/boundary/singleboundaryconvective.cpp:kernelConvectiveDiffDir", "src/boundary/singleboundaryconvective.cpp:SingleBoundaryConvective::setGhostICsKernel"]}
{"id": "C17", "title": "The implicit part of a boundary equation never changes", "statement": "The coefficient multiplying the neighbour in the ghost equation is fixed by the type, face and component from the first ghost initialisation on, whatever updates follow, so matrices built once remain valid.", "quantifier": "all boundary types, all histories", "why_tests_cant": "unbounded histories", "anchors": ["src/boundary/singleboundaryconvective.cpp", "src/boundary/singleboundarydirichlet.cpp", "src/boundary/singleboundaryneumann.cpp", "src/operators/createlaplacian.cpp:createLaplacian"]}
{"id": "C18", "title": "Ghost storage behaves as a dictionary of grid points", "statement": "Looking up a ghost point by its stencil finds exactly the record stored for the same four integers: two different stencils never share a record and equal stencils always do.", "quantifier": "all pairs of stencils, all insertion sequences", "why_tests_cant": "all integer stencils", "anchors": ["src/private/private.h:operator<"]}
{"id": "C19", "title": "Gradient", "statement": "Each row of the gradient operator takes the difference between the pressure on the two sides of the velocity point divided by the distance between these pressure points: constants give zero, linear pressures give the exact slope.", "quantifier": "all meshes with >=2 cells per direction (>=3 when periodic), all pressure fields", "why_tests_cant": "all pressure fields and meshes", "anchors": ["src/operators/creategradient.cpp:createGradient"]}
{"id": "C20", "title": "Divergence and gradient are negative transposes", "statement": "With normalised operators, the divergence matrix on velocity unknowns is minus the transpose of the gradient matrix whenever no boundary equation has an implicit part in its normal direction; with dimensional operators the same holds after scaling with face areas and cell distances.", "quantifier": "all meshes, dimensions, periodicities, all Dirichlet/convective boundaries", "why_tests_cant": "all meshes", "anchors": ["src/operators/createdivergence.cpp:createDivergence", "src/operators/creategradient.cpp:createGradient"]}
{"id": "C21", "title": "Discrete divergence is a flux balance", "statement": "Divergence matrix plus its boundary correction applied to a velocity gives, in each cell, the net flux through the faces computed with interior velocities and current ghost values; summed over all cells only boundary fluxes remain.", "quantifier": "all meshes, velocities, boundary types", "why_tests_cant": "all fields and meshes", "anchors": ["src/operators/createdivergence.cpp:createDivergence", "src/operators/createdivergence.cpp:DCorrectionMult"]}
{"id": "C22", "title": "Laplacian plus correction equals the Laplacian of the extended field", "statement": "Applying the Laplacian matrix and adding the correction equals the three-point second-difference stencil applied to the velocity field extended by the current ghost values.", "quantifier": "all meshes, all velocity fields, all boundary types, all update histories", "why_tests_cant": "all fields and histories", "anchors": ["src/operators/createlaplacian.cpp:createLaplacian", "src/operators/createlaplacian.cpp:LCorrectionMult"]}
{"id": "C23", "title": "Laplacian consistency", "statement": "The second-difference stencil vanishes on constant and linear fields on every non-uniform mesh and is exact on quadratics on uniform meshes; off-diagonal entries are positive and rows are diagonally dominant.", "quantifier": "all meshes with increasing coordinates, all linear fields", "why_tests_cant": "all meshes and fields", "anchors": ["src/operators/createlaplacian.cpp:setRowValues"]}
{"id": "C24", "title": "Convection conserves momentum", "statement": "The volume-weighted sum of the convective terms of a component over all its points equals the net momentum flux through the boundary; it is zero in a fully periodic box and zero pointwise for uniform flow.", "quantifier": "all velocity fields (including ghost values), all meshes, 2D and 3D", "why_tests_cant": "all fields and meshes; a wrong neighbour index is invisible on symmetric test fields", "anchors": ["src/operators/createconvection.cpp:ConvectionMult2D", "src/operators/createconvection.cpp:ConvectionMult3D"]}
{"id": "C25", "title": "Diagonal scalings are mutually consistent", "statement": "The area scaling and its inverse cancel, the flux-mass matrix equals the velocity-mass matrix divided by the area, converting velocity to flux and back restores the solution.", "quantifier": "all meshes with positive widths, all velocity vectors", "why_tests_cant": "all vectors and meshes", "anchors": ["src/operators/creatediagmatrix.cpp:createR", "src/operators/creatediagmatrix.cpp:createRInv", "src/operators/creatediagmatrix.cpp:createMHead", "src/operators/creatediagmatrix.cpp:createM", "src/solution/solutionsimple.cpp:convert2Flux"]}
{"id": "C26", "title": "Approximate inverse of the implicit operator", "statement": "The order-n operator B satisfies (I/dt - c*L) B = I - (dt*c*L)^n exactly, for every matrix L and order n >= 1, order 1 being dt*I; orders below one are rejected.", "quantifier": "all square matrices, dt != 0, c, n >= 1", "why_tests_cant": "all matrices and orders", "anchors": ["src/operators/createbn.cpp:createBnHead", "src/operators/createbn.cpp:createBn"]}
{"id": "C27", "title": "Regularised delta functions", "statement": "Both kernels are even, non-negative, continuous, vanish outside 1.5 (2) cells, the shifted values sum to one and have zero first moment for every position.", "quantifier": "all real distances, all widths > 0", "why_tests_cant": "all real numbers", "anchors": ["src/misc/delta.cpp:Roma_et_al_1999", "src/misc/delta.cpp:Peskin_2002"]}
{"id": "C28", "title": "Interpolation window covers the kernel support", "statement": "On a locally uniform grid every velocity point at which the kernel is non-zero lies inside the index window scanned around the cell holding the body point, so interpolating a constant field to the body gives this constant.", "quantifier": "all body positions, both kernels, all staggered components", "why_tests_cant": "all real positions", "anchors": ["src/operators/createdelta.cpp:createDelta", "src/operators/createdelta.cpp:getEulerianNeighbors", "src/misc/delta.cpp:getKernel"]}
{"id": "C29", "title": "Body points near a periodic boundary see the wrapped cells", "statement": "If a direction is periodic the neighbourhood of a body point near the domain end includes the wrapped velocity points at their periodic distance; if it is not periodic no wrapped point is used.", "quantifier": "all periodic/non-periodic direction combinations, all body positions", "why_tests_cant": "all configurations of boundary types and positions", "anchors": ["src/operators/createdelta.cpp:createDelta", "src/operators/createdelta.cpp:getEulerianNeighbors"]}
{"id": "C30", "title": "Body file reader", "statement": "A body file is accepted exactly when it declares a positive number of points followed by exactly that many coordinate lines of one and the same dimension; the returned coordinates are the ones in the file, and malformed files give an error rather than touching memory outside the array.", "quantifier": "all file contents", "why_tests_cant": "all files, including truncated and oversized ones", "anchors": ["src/io/io.cpp:readLagrangianPoints"]}
{"id": "C31", "title": "Body force numbering is a bijection", "statement": "For any number of bodies, points and processes, (body, point, component) maps one to one onto [0, dim * total points), blocks ordered by process, then body, then point; the owner returned for a point is the process whose block contains it; out-of-range arguments give an error.", "quantifier": "all body sizes, process counts, partitions", "why_tests_cant": "all layouts", "anchors": ["src/body/bodypack.cpp:BodyPackBase::getPackedGlobalIndex", "src/body/singlebodypoints.cpp:SingleBodyPoints::getGlobalIndex", "src/body/singlebodypoints.cpp:SingleBodyPoints::findProc"]}
{"id": "C32", "title": "Integrated body force does not depend on the partition", "statement": "The reported force on a body is minus the sum of the forces of its points, whatever the number of processes.", "quantifier": "all force vectors, all partitions, all numbers of bodies", "why_tests_cant": "all partitions", "anchors": ["src/body/singlebodypoints.cpp:SingleBodyPoints::calculateAvgForces", "src/body/bodypack.cpp:BodyPackBase::calculateAvgForces"]}
{"id": "C33", "title": "Background cell of a body point", "statement": "The recorded cell index of a body point inside the domain is the index of the pressure cell that contains it.", "quantifier": "all positions inside the domain, all meshes", "why_tests_cant": "all real positions, including exactly on a vertex", "anchors": ["src/body/singlebodypoints.cpp:SingleBodyPoints::updateMeshIdx"]}
{"id": "C34", "title": "Point probe interpolation", "statement": "The interpolated value is exact for (bi/tri)linear fields and lies between the smallest and largest of the surrounding values.", "quantifier": "all fields, all target points inside the box, 2D and 3D", "why_tests_cant": "all fields and points", "anchors": ["src/misc/lininterp.cpp:TriLinInterp::interpolate", "src/misc/lininterp.cpp:BiLinInterp::interpolate"]}
{"id": "C35", "title": "A probe point belongs to exactly one process", "statement": "Every probe point between the first and last grid line of its field is claimed by exactly one process, for every partition; the claiming process finds the surrounding grid lines in its own (ghosted) range.", "quantifier": "all points, partitions and meshes", "why_tests_cant": "all partitions and points, including points exactly on a grid line", "anchors": ["src/mesh/cartesianmesh.cpp:CartesianMesh::isPointOnLocalProc", "src/misc/lininterp.cpp:LinInterpBase::getBLGridlineIndices"]}
{"id": "C36", "title": "Volume probe selects exactly the grid points inside its box", "statement": "A grid point is recorded iff each coordinate is inside the box up to the tolerance; the index sets of all processes are disjoint and together give exactly these points; the reported number of points is their number.", "quantifier": "all boxes with lower <= upper, all meshes, all partitions", "why_tests_cant": "all boxes and partitions", "anchors": ["src/misc/probes.cpp:ProbeVolume::getInfo", "src/misc/probes.cpp:ProbeVolume::createIS"]}
{"id": "C37", "title": "Probe output is the mean of the last samples", "statement": "With an averaging window of m samples, output happens exactly at every m-th monitored step and equals the mean of the m samples since the previous output; without a window every sample is written unchanged.", "quantifier": "all window sizes, all histories of monitored fields", "why_tests_cant": "unbounded histories", "anchors": ["src/misc/probes.cpp:ProbeVolume::monitorVec"]}
{"id": "C38", "title": "Probe sampling times", "statement": "A probe samples exactly the steps that are multiples of its period and whose time is in its interval.", "quantifier": "all step numbers, times, periods", "why_tests_cant": "all histories", "anchors": ["src/misc/probes.cpp:ProbeBase::monitor"]}
{"id": "C39", "title": "Time scheme coefficients are consistent", "statement": "For every accepted scheme the implicit and explicit coefficients sum to one and the number of stored explicit terms equals the number of explicit coefficients; unknown scheme names are rejected.", "quantifier": "all scheme names", "why_tests_cant": "all strings", "anchors": ["src/timeintegration/timeintegration.cpp:createTimeIntegration", "include/petibm/timeintegration.h"]}
{"id": "C40", "title": "Explicit terms use the right time levels", "statement": "At step n the i-th stored explicit term is the term of time level n-i for all i, for every number of stored terms and every run length; on the first steps missing levels count as zero.", "quantifier": "all numbers of stored terms, all run lengths", "why_tests_cant": "unbounded runs", "anchors": ["applications/navierstokes/navierstokes.cpp:NavierStokesSolver::assembleRHSVelocity"]}
{"id": "C41", "title": "Every step is a consistent time integration", "statement": "The weights of the explicit convective terms used in a step sum to one in every step, including the first.", "quantifier": "all schemes, all steps", "why_tests_cant": "all schemes and steps", "anchors": ["applications/navierstokes/navierstokes.cpp:NavierStokesSolver::assembleRHSVelocity", "applications/navierstokes/navierstokes.cpp:NavierStokesSolver::createVectors"]}
{"id": "C42", "title": "The projected velocity is discretely divergence free", "statement": "After a step, the discrete divergence (with boundary values) of the new velocity equals the residual of the Poisson solve; with an exact solve it is zero in every cell.", "quantifier": "all operators, right-hand sides, orders of B, all velocities", "why_tests_cant": "all states", "anchors": ["applications/navierstokes/navierstokes.cpp:NavierStokesSolver::applyDivergenceFreeVelocity", "applications/navierstokes/navierstokes.cpp:NavierStokesSolver::assembleRHSPoisson"]}
{"id": "C43", "title": "Pinning the pressure does not change the projected velocity", "statement": "When the pressure is pinned in one cell (GPU solver), the resulting velocity is divergence free in every cell provided the unpinned system is solvable, and equals the velocity of the unpinned solve. Hence every run of every solver with the pinned system is, state by state, a run with the unpinned one.", "quantifier": "all solvable systems", "why_tests_cant": "all systems", "anchors": ["applications/navierstokes/navierstokes.cpp:NavierStokesSolver::setNullSpace", "applications/navierstokes/navierstokes.cpp:NavierStokesSolver::assembleRHSPoisson"]}
{"id": "C44", "title": "No-slip on immersed bodies", "statement": "In the coupled solver the new velocity interpolated to the body points is zero and divergence free simultaneously (exact solve). In the decoupled solver the velocity after the force step interpolates to the prescribed body velocity, and the slip after the projection is exactly the interpolated pressure correction.", "quantifier": "all states, bodies, operators", "why_tests_cant": "all states", "anchors": ["applications/ibpm/ibpm.cpp:IBPMSolver", "applications/decoupledibpm/decoupledibpm.cpp:DecoupledIBPMSolver", "applications/rigidkinematics/rigidkinematics.cpp:RigidKinematicsSolver::assembleRHSForces"]}
{"id": "C45", "title": "A run performs exactly the requested steps", "statement": "A run makes exactly max(nt,0) steps; the step counter goes from the start step to start+nt, physical time advances by dt per step.", "quantifier": "all start steps, nt, dt", "why_tests_cant": "all run lengths", "anchors": ["applications/navierstokes/navierstokes.cpp:NavierStokesSolver::advance", "applications/navierstokes/navierstokes.cpp:NavierStokesSolver::finished", "applications/navierstokes/main.cpp:main"]}
{"id": "C46", "title": "Which steps are saved", "statement": "A run writes the solution of exactly the steps in (start, start+nt] that are multiples of nsave, plus the initial solution when starting at step 0, and restart data exactly at multiples of nrestart (with the solution if the step has no file yet); no other file changes.", "quantifier": "all start, nt, nsave >= 1, nrestart >= 1", "why_tests_cant": "all combinations", "anchors": ["applications/navierstokes/navierstokes.cpp:NavierStokesSolver::write", "applications/navierstokes/navierstokes.cpp:NavierStokesSolver::ioInitialData"]}
{"id": "C47", "title": "Restart continues the run", "statement": "Running k+m steps gives the same state as running k steps, saving restart data, restarting from that file in a fresh solver and running m steps.", "quantifier": "all initial states, step counts, time schemes, boundary types", "why_tests_cant": "all run lengths and states; a hidden piece of state (explicit terms, ghost equations) only shows up for particular schemes and boundaries", "anchors": ["applications/navierstokes/navierstokes.cpp:NavierStokesSolver::writeRestartDataHDF5", "applications/navierstokes/navierstokes.cpp:NavierStokesSolver::readRestartDataHDF5"]}
{"id": "C48", "title": "A restart file holds the state of its step", "statement": "Whatever files were in the output directory before, after restart data are written at step n the file of step n contains fields, time and explicit terms of step n of this run.", "quantifier": "all previous contents of the output directory, all nsave/nrestart", "why_tests_cant": "all histories of the output directory", "anchors": ["applications/navierstokes/navierstokes.cpp:NavierStokesSolver::writeRestartDataHDF5"]}
{"id": "C49", "title": "Different steps use different files", "statement": "The file names produced for two different non-negative steps differ, and the solvers and the post-processing tools generate the same name for a step.", "quantifier": "all pairs of non-negative steps", "why_tests_cant": "all integers, including those with more digits than the padding", "anchors": ["applications/navierstokes/navierstokes.cpp:NavierStokesSolver::write", "applications/createxdmf/main.cpp:writeSingleXDMF"]}
{"id": "C50", "title": "Post-processing visits exactly the saved steps", "statement": "With default options, the XDMF and vorticity tools visit exactly the steps saved by a run with the same configuration.", "quantifier": "all start, nt, nsave >= 1", "why_tests_cant": "all combinations", "anchors": ["applications/createxdmf/main.cpp:writeSingleXDMF", "applications/vorticity/main.cpp:main"]}
{"id": "C51", "title": "Vorticity", "statement": "The computed vorticity is exact for linear velocity fields and is computed from velocity points and registered ghost values only.", "quantifier": "all linear fields, all meshes, all vorticity points", "why_tests_cant": "all meshes and points; corners involve ghost points that are never set", "anchors": ["applications/vorticity/main.cpp:calculateVorticity2D", "applications/vorticity/main.cpp:calculateVorticity3D"]}
{"id": "C52", "title": "Stencils never leave the local ghosted array", "statement": "With the default distribution of grid lines, for every number of processes, every value read by the convection operator and the vorticity tool on a process lies in the locally owned range extended by one layer, although different fields have different numbers of grid lines.", "quantifier": "all grid sizes, all process counts, all ranks", "why_tests_cant": "all process counts and sizes", "anchors": ["src/operators/createconvection.cpp:ConvectionMult2D", "src/operators/createconvection.cpp:ConvectionMult3D", "applications/vorticity/main.cpp:calculateVorticity2D"]}
{"id": "C53", "title": "Command-line configuration files override the main file", "statement": "After reading the settings, every top-level section has the value of the last file that defines it in the order: config file, mesh, flow, parameters, bodies, probes; sections not redefined are kept.", "quantifier": "all files and sets of options", "why_tests_cant": "all combinations of files and keys", "anchors": ["src/parser/parser.cpp:getSettings", "src/parser/parser.cpp:readYAMLFile"]}
{"id": "C54", "title": "Saved fields are read back unchanged", "statement": "Writing the fields and reading them back under the same names restores every field; writing some fields leaves other datasets of an appended file unchanged.", "quantifier": "all fields, all previous file contents", "why_tests_cant": "all values and histories of writes", "anchors": ["src/solution/solutionsimple.cpp:SolutionSimple::write", "src/solution/solutionsimple.cpp:SolutionSimple::read", "src/io/io.cpp:writeHDF5Vecs", "src/io/io.cpp:readHDF5Vecs"]}
{"id": "C55", "title": "Spreading is the adjoint of interpolation and conserves force", "statement": "The operator that spreads body forces to the grid is the transpose of the raw delta operator; the grid-volume-weighted sum of the spread force equals the sum of the body forces times the row sums, hence equals the total body force where rows sum to one.", "quantifier": "all delta matrices and forces", "why_tests_cant": "all bodies and forces", "anchors": ["applications/decoupledibpm/decoupledibpm.cpp:DecoupledIBPMSolver::createExtraOperators", "applications/ibpm/ibpm.cpp:IBPMSolver::createOperators"]}
{"id": "C56", "title": "Initial conditions are the user functions at the grid points", "statement": "After initialisation each velocity component and the pressure hold at every grid point the user expression evaluated at the coordinates of this point at time 0; every grid point is set by exactly one process.", "quantifier": "all expressions, meshes and partitions", "why_tests_cant": "all functions and partitions", "anchors": ["src/solution/solutionsimple.cpp:SolutionSimple::setInitialConditions"]}
{"id": "C57", "title": "Mesh and boundary construction succeeds and fulfils the invariants", "statement": "For every configuration with valid axes and consistent boundary conditions the mesh and boundary objects of all processes are constructed without error, and the resulting index layout, coordinates and ghost tables fulfil the invariants that the operators rely on.", "quantifier": "all dimensions, axes, periodicities, boundary tables and process grids with at least one grid line per process", "why_tests_cant": "all configurations and process grids", "anchors": ["src/mesh/cartesianmesh.cpp:CartesianMesh::init", "src/boundary/boundarysimple.cpp:BoundarySimple::init"]}
{"id": "C58", "title": "The convective term uses current values of the field", "statement": "At every velocity point the convective term is the conservative difference formula evaluated with the current velocity, the current ghost values on the walls and the periodic images, independent of the number of processes and of the previous contents of the local work vectors.", "quantifier": "all meshes, boundary types, process grids, velocities, previous contents", "why_tests_cant": "needs all process grids and wall/periodic combinations; the wrong values only appear at process boundaries next to walls with normal velocity", "anchors": ["src/operators/createconvection.cpp:ConvectionMult2D", "src/operators/createconvection.cpp:ConvectionMult3D", "src/boundary/singleboundarybase.cpp:SingleBoundaryBase::copyValues2LocalVec"]}
{"id": "C59", "title": "A time step satisfies the discrete momentum equation", "statement": "At every velocity point the change from the old to the intermediate velocity over dt equals minus the discrete pressure gradient, minus the convective terms of the previous levels with the weights of the convection scheme, plus viscosity times the second differences of the previous levels and of the intermediate velocity with the weights of the diffusion scheme, where the velocities beyond the walls are the ghost values of the respective time level. With immersed bodies the forces of the level before, spread from the points of the bodies (with prescribed motion: from their new positions), are added.", "quantifier": "all meshes, boundary types, schemes, bodies, kernels, motions, numbers of steps and exact velocity solvers", "why_tests_cant": "a statement about every point, scheme and step of every run; a wrong ghost level or sign only changes the order of accuracy", "anchors": ["applications/navierstokes/navierstokes.cpp:NavierStokesSolver::assembleRHSVelocity", "applications/navierstokes/navierstokes.cpp:NavierStokesSolver::createOperators", "applications/navierstokes/navierstokes.cpp:NavierStokesSolver::advance", "applications/decoupledibpm/decoupledibpm.cpp:DecoupledIBPMSolver::assembleRHSVelocity", "applications/ibpm/ibpm.cpp:IBPMSolver::createOperators", "applications/rigidkinematics/rigidkinematics.cpp:RigidKinematicsSolver::advance"]}
{"id": "C60", "title": "Accepted configurations start and run without error", "statement": "For every constructed mesh and boundary, accepted parameters and a sufficient list of initial conditions the solver initialises and writes the initial solution without error, and afterwards a step fails only with an error of one of the linear solvers.", "quantifier": "all meshes, boundary types, process grids, parameters and solvers", "why_tests_cant": "absence of failures and of out-of-bounds accesses for all configurations and all numbers of steps", "anchors": ["applications/navierstokes/navierstokes.cpp:NavierStokesSolver::init", "applications/navierstokes/navierstokes.cpp:NavierStokesSolver::ioInitialData", "applications/navierstokes/navierstokes.cpp:NavierStokesSolver::advance"]}
{"id": "C61", "title": "The system for the velocity is uniquely solvable", "statement": "For a positive time step and a viscosity that is not negative, the matrix of the implicit velocity system (all schemes, meshes, boundary types and process grids) is non-singular: every right-hand side has exactly one solution.", "quantifier": "all meshes, boundary types, schemes, time steps, right-hand sides", "why_tests_cant": "non-singularity for all sizes and widths cannot be sampled", "anchors": ["applications/navierstokes/navierstokes.cpp:NavierStokesSolver::createOperators", "src/operators/createlaplacian.cpp:createLaplacian"]}
{"id": "C62", "title": "Null space and solvability of the pressure system", "statement": "The constants are in the null space of the Poisson matrix that the solver declares; they are the whole null space, and a right-hand side is solvable exactly if it sums to zero; the right-hand side of every step sums to the flux prescribed by the walls, so runs whose prescribed fluxes cancel never meet an unsolvable system.", "quantifier": "all meshes, walls, orders of B, states and steps", "why_tests_cant": "a compatibility statement about every step of every run", "anchors": ["applications/navierstokes/navierstokes.cpp:NavierStokesSolver::setNullSpace", "applications/navierstokes/navierstokes.cpp:NavierStokesSolver::assembleRHSPoisson"]}
{"id": "C63", "title": "Restart with another number of processes", "statement": "A restart file written with one distribution of the mesh over processes and read with another gives every grid point its velocity, its pressure and its explicit terms.", "quantifier": "all meshes, pairs of distributions, states, time schemes", "why_tests_cant": "needs all pairs of process grids; on one process, or with the same number of processes, the defect is invisible", "anchors": ["applications/navierstokes/navierstokes.cpp:NavierStokesSolver::writeRestartDataHDF5", "applications/navierstokes/navierstokes.cpp:NavierStokesSolver::readRestartDataHDF5", "src/io/io.cpp:writeHDF5Vecs"]}
{"id": "C64", "title": "The delta operator can be assembled for every body inside the domain", "statement": "For every mesh, boundary configuration and distribution over processes, and for all bodies whose points are inside the domain, the cell indices and the delta operator are computed without error and without reading outside of an array.", "quantifier": "all meshes, boundary types, distributions of grid and bodies, body positions, kernels", "why_tests_cant": "an out-of-bounds read depends on body position, periodicity and the number of processes per body and often goes unnoticed", "anchors": ["src/operators/createdelta.cpp:createDelta", "src/operators/createdelta.cpp:getEulerianNeighbors", "src/body/singlebodypoints.cpp:SingleBodyPoints::updateMeshIdx"]}
{"id": "C65", "title": "A run starts from the configured fields", "statement": "A run of any of the solvers that starts at step 0 has at every velocity point the configured initial velocity and at every pressure point the configured initial pressure (zero if there is none), and zero forces on the bodies; the file of step 0 holds these fields.", "quantifier": "all meshes, process grids, initial expressions, bodies", "why_tests_cant": "needs all configurations; the initial pressure is usually zero in tests, so its loss is invisible", "anchors": ["applications/ibpm/ibpm.cpp:IBPMSolver::createVectors", "applications/navierstokes/navierstokes.cpp:NavierStokesSolver::init", "src/solution/solutionsimple.cpp:SolutionSimple::setInitialConditions"]}
{"id": "C66", "title": "Every output of an HDF5 probe is kept", "statement": "After a run the HDF5 file of a volume probe holds one data set for every output of the probe, with its values, in the order of the outputs.", "quantifier": "all meshes, boxes, windows, periods and histories", "why_tests_cant": "the names of the data sets collide only for small time steps or long runs with small output intervals", "anchors": ["src/misc/probes.cpp:ProbeVolume::writeVec_HDF5", "src/misc/probes.cpp:ProbeVolume::monitorVec"]}
{"id": "C67", "title": "Pressure probes report the pressure in every solver", "statement": "In all solvers, on every number of processes, a volume probe of the pressure writes the pressure of the recorded points.", "quantifier": "all meshes, distributions, bodies and states", "why_tests_cant": "the values are wrong only on several processes with body points on a process that is not the last one", "anchors": ["applications/navierstokes/navierstokes.cpp:NavierStokesSolver::monitorProbes", "applications/ibpm/ibpm.cpp:IBPMSolver::createVectors", "src/misc/probes.cpp:ProbeBase::monitor"]}
{"id": "C68", "title": "Restarts do not change probe output", "statement": "A run that is interrupted and restarted leaves the same outputs in the file of a volume probe as the uninterrupted run.", "quantifier": "all meshes, boxes, windows, histories and points of interruption", "why_tests_cant": "the lost samples depend on the phase of the averaging window at the restart", "anchors": ["src/misc/probes.cpp:ProbeVolume::init", "src/misc/probes.cpp:ProbeVolume::monitorVec", "src/misc/probes.cpp:ProbeVolume::writeGrid_HDF5"]}
{"id": "C69", "title": "Directories come from the command line and exist before anything is written", "statement": "After reading the settings, the working directory, output and log directories are those of the command line or the defaults below them, and the output and log directories have been created, in this order, or existed.", "quantifier": "all options, files and file systems", "why_tests_cant": "all combinations of options and keys in the files", "anchors": ["src/parser/parser.cpp:getSettings", "src/parser/parser.cpp:createDirectory"]}
{"id": "C70", "title": "Vorticity values belong to the coordinates saved with them", "statement": "The velocity points from which a vorticity value is computed surround the point whose coordinates the utility saves for the value: same vertex in their own direction, same cell in the direction of the component, one on either side in the remaining direction.", "quantifier": "all meshes, fields and points", "why_tests_cant": "the shift by one cell of two components is invisible in plots of flows that vary slowly", "anchors": ["applications/vorticity/main.cpp:initVorticityMesh", "applications/vorticity/main.cpp:calculateVorticity3D"]}
{"id": "C71", "title": "The vorticity utility only adds data", "statement": "If the solution of a time step can be read, the utility appends the vorticity fields on all their points in natural order and leaves the other data sets, the time and all other files as they were; otherwise it stops and writes nothing.", "quantifier": "all meshes, process counts, files and histories of the boundary objects", "why_tests_cant": "all contents of the files", "anchors": ["applications/vorticity/main.cpp:main", "src/io/io.cpp:writeHDF5Vecs"]}
{"id": "C72", "title": "XDMF files refer to data that exists with the stated sizes", "statement": "After a solver has written grid.h5, the file holds for every field and direction the coordinates of the points of the field (without ghost points); after the vorticity utility has appended to it, it also holds those of the vorticity fields and all the others are kept, and no other file has changed. Then the coordinates that each XDMF file of petibm-createxdmf refers to exist and there are as many in each direction as the XDMF file says (in 2D the literal third coordinate stands for one point). If the file of a step can be read as a solution, the u, v, w and p that the XDMF files refer to at this step have as many values as the product of the stated sizes, and after the vorticity utility has treated the step, so have the vorticity components. Every velocity component, the pressure and every vorticity component has its own XDMF file with every step, and there are no others.", "quantifier": "all meshes with 2 or 3 dimensions, all disks, all output directories, all lists of steps", "why_tests_cant": "The tests neither run the utilities nor read the XDMF files back; whether names and sizes agree is seen only when a visualisation program opens the files.", "anchors": ["applications/createxdmf/main.cpp:main", "applications/createxdmf/main.cpp:writeSingleXDMF", "src/mesh/cartesianmesh.cpp:CartesianMesh::write", "applications/vorticity/main.cpp:main"]}
{"id": "C73", "title": "The oscillating cylinder moves with the velocity that it prescribes", "statement": "In the example with the oscillating cylinder the velocity prescribed at every point of the body is the time derivative of the coordinates prescribed for this point, at every time, whatever coordinates and velocities were there before. The cylinder is never further than D KC / (2 pi) from its initial position, is back there after every period, does not move in y, and its largest speed is KC f D.", "quantifier": "all real frequencies, diameters and Keulegan-Carpenter numbers (given or missing), all two-dimensional bodies, all times", "why_tests_cant": "A test compares positions and velocities at a few times only; a wrong sign or factor between displacement and velocity gives a plausible flow with wrong forces.", "anchors": ["examples/api_examples/oscillatingcylinder2dRe100_GPU/oscillatingcylinder.cpp:OscillatingCylinderSolver::setCoordinatesBodies", "examples/api_examples/oscillatingcylinder2dRe100_GPU/oscillatingcylinder.cpp:OscillatingCylinderSolver::setVelocityBodies", "examples/api_examples/oscillatingcylinder2dRe100_GPU/oscillatingcylinder.cpp:OscillatingCylinderSolver::init"]}
{"id": "C74", "title": "Every saved step of a moving body has a file with its points at that time", "statement": "RigidKinematicsSolver writes, at its start and at every saved step, one file per body with one line per point, in order, with the coordinates of the point at the time of the step. Files of different bodies or steps have different names, no other file is changed, and later steps leave the file as it is.", "quantifier": "all motions that keep number and dimension of the points, all numbers of bodies and steps, all layouts, all ways of printing numbers, also after a restart", "why_tests_cant": "Tests would have to run long simulations with several moving bodies and restarts and parse all files of all steps.", "anchors": ["applications/rigidkinematics/rigidkinematics.cpp:RigidKinematicsSolver::writeBodies", "applications/rigidkinematics/rigidkinematics.cpp:RigidKinematicsSolver::write", "applications/rigidkinematics/rigidkinematics.cpp:RigidKinematicsSolver::ioInitialData", "src/body/singlebodypoints.cpp:SingleBodyPoints::writeBody"]}
{"id": "C75", "title": "A body file that was written can be read as body", "statement": "What SingleBodyPoints::writeBody writes is accepted by SingleBodyPoints::readBody, which returns the same number of points and the coordinates as they were printed.", "quantifier": "all bodies of dimension 2 and 3 with at least one point, all ways of printing and reading numbers", "why_tests_cant": "No test reads a written body back; a test would use one body.", "anchors": ["src/body/singlebodypoints.cpp:SingleBodyPoints::writeBody", "src/body/singlebodypoints.cpp:SingleBodyPoints::readBody", "src/io/io.cpp:readLagrangianPoints"]}
{"id": "C76", "title": "The lid-driven cavity example computes the flow after 2000 steps of the documented method", "statement": "The program examples/api_examples/liddrivencavity2d writes grid.h5 and 0002000.h5; the latter holds the velocity and pressure that the Navier-Stokes solver with explicit Euler for convection, implicit Euler for diffusion, first-order approximate inverse and the same step size and viscosity computes in end - start steps from the same initial and boundary conditions, and every error of the solver is an error of the program.", "quantifier": "all meshes, boundary and initial conditions, step sizes, viscosities, linear solvers, numbers of steps", "why_tests_cant": "Comparing a second implementation of the method with the solver by tests needs both programs and covers one flow; a difference of one step is invisible once the flow is nearly steady.", "anchors": ["examples/api_examples/liddrivencavity2d/main.cpp:main", "applications/navierstokes/navierstokes.cpp:NavierStokesSolver::advance", "applications/navierstokes/navierstokes.cpp:NavierStokesSolver::createOperators"]}
{"id": "C77", "title": "A restarted run with immersed bodies continues the run that was interrupted", "statement": "If a run of DecoupledIBPMSolver or IBPMSolver is stopped after step k, for which restart data were written, and a new run is started at step k, then the new run reads time, velocity, pressure, explicit terms and Lagrangian forces of step k, all its steps have the flow and the forces of the uninterrupted run or its error, and the lines of its forces file continue those of the first run.", "quantifier": "all meshes, boundary and initial conditions, bodies, kernels, parameters, linear solvers, steps k and numbers of steps", "why_tests_cant": "A test restarts one simulation at one step and compares results to a tolerance.", "anchors": ["applications/decoupledibpm/decoupledibpm.cpp:DecoupledIBPMSolver::writeRestartDataHDF5", "applications/decoupledibpm/decoupledibpm.cpp:DecoupledIBPMSolver::readRestartDataHDF5", "applications/ibpm/ibpm.cpp:IBPMSolver::writeRestartDataHDF5", "applications/ibpm/ibpm.cpp:IBPMSolver::readRestartDataHDF5", "applications/ibpm/ibpm.cpp:IBPMSolver::writeForcesASCII"]}
{"id": "C78", "title": "A run with immersed bodies writes its saved steps, its restart data and one line of forces per step", "statement": "A run of DecoupledIBPMSolver or IBPMSolver that succeeds has made nt steps; every step that is a multiple of nsave has a file with velocity, pressure and time; every step that is a multiple of nrestart has explicit terms and Lagrangian forces; the file forces-<start>.txt has exactly one line per step with the time and, for every body and direction, minus the sum of the Lagrangian forces of its points; no other file is changed. A run that does not succeed ends with the error of a step.", "quantifier": "all meshes, boundary and initial conditions, bodies, kernels, parameters, linear solvers, numbers of steps, previous contents of the output directory", "why_tests_cant": "Tests would have to run both programs for many combinations of nsave, nrestart and start steps and parse all files.", "anchors": ["applications/decoupledibpm/main.cpp:main", "applications/decoupledibpm/decoupledibpm.cpp:DecoupledIBPMSolver::init", "applications/decoupledibpm/decoupledibpm.cpp:DecoupledIBPMSolver::write", "applications/decoupledibpm/decoupledibpm.cpp:DecoupledIBPMSolver::writeForcesASCII", "applications/ibpm/main.cpp:main", "applications/ibpm/ibpm.cpp:IBPMSolver::write", "applications/ibpm/ibpm.cpp:IBPMSolver::writeSolutionHDF5", "applications/ibpm/ibpm.cpp:IBPMSolver::writeForcesASCII"]}
{"id": "C79", "title": "The bodies of a simulation are those of its configuration", "statement": "createBodyPack creates one body for every entry of the configuration, in their order, each with the points of its file, which is looked up in the directory of the simulation if its path is relative; entries without file, of unknown type, or whose file is malformed or of another dimension are reported as errors.", "quantifier": "all configurations, file systems, numbers of processes, dimensions", "why_tests_cant": "Tests use a few configurations, and none with errors.", "anchors": ["src/body/bodypack.cpp:BodyPackBase::init", "src/body/bodypack.cpp:createBodyPack", "src/body/singlebody.cpp:createSingleBody", "src/body/singlebodypoints.cpp:SingleBodyPoints::init"]}
{"id": "C80", "title": "The parameters of a run are those of the configuration", "statement": "NavierStokesSolver::init accepts a configuration exactly if dt, nt, nsave, nrestart, nu and both time schemes are given and all names of schemes and solver types are known; the parameters are then the given ones, with start step 0, time 0, first-order approximate inverse and CPU solvers as defaults. Otherwise it ends with an exception for a missing number or an error code for an unknown name.", "quantifier": "all configurations, with and without AmgX", "why_tests_cant": "The defaults and errors are scattered over several constructors; tests use complete configurations.", "anchors": ["applications/navierstokes/navierstokes.cpp:NavierStokesSolver::init", "applications/navierstokes/navierstokes.cpp:NavierStokesSolver::createOperators", "src/timeintegration/timeintegration.cpp:createTimeIntegration", "src/linsolver/linsolver.cpp:createLinSolver"]}
{"id": "C81", "title": "The matrices given to the linear solvers suit conjugate gradients", "statement": "LinSolverKSP uses conjugate gradients unless told otherwise, which needs a symmetric and definite matrix. The matrix of the Poisson system (pinned or not), of the force system of the decoupled solvers (for every position of moving bodies) and of the composite system of the coupled solver are symmetric and semidefinite of one sign, with the null space that the code declares or that follows from the spreading operator; the matrix of the velocity system is symmetric and positive definite.", "quantifier": "all meshes, boundary conditions, bodies, kernels, orders of the approximate inverse, schemes, viscosities and time steps", "why_tests_cant": "Symmetry and definiteness are statements about all vectors; a test sees at most that an iteration converged once.", "anchors": ["src/linsolver/linsolverksp.cpp:LinSolverKSP::init", "applications/navierstokes/navierstokes.cpp:NavierStokesSolver::createOperators", "applications/decoupledibpm/decoupledibpm.cpp:DecoupledIBPMSolver::createExtraOperators", "applications/ibpm/ibpm.cpp:IBPMSolver::createOperators", "applications/ibpm/ibpm.cpp:IBPMSolver::setNullSpace", "src/operators/createbn.cpp:createBnHead"]}
{"id": "C82", "title": "The results do not depend on the number of processes", "statement": "Two runs of navierstokes with the same configuration and different distributions of the mesh over processes, from the initial conditions or continued from the same file, have at every step the same velocity at every point, the same pressure in every cell up to a constant, the same time and step number, if the linear systems are solved exactly.", "quantifier": "all meshes, distributions of the mesh, boundary conditions, initial conditions, schemes, numbers of steps and linear solvers", "why_tests_cant": "A test compares a few numbers of processes on one mesh and sees differences only above a tolerance.", "anchors": ["applications/navierstokes/navierstokes.cpp:NavierStokesSolver::advance", "applications/navierstokes/navierstokes.cpp:NavierStokesSolver::readRestartDataHDF5", "src/operators/createconvection.cpp:ConvectionMult2D", "src/mesh/cartesianmesh.cpp:CartesianMesh::getPackedGlobalIndex", "src/boundary/boundarysimple.cpp:BoundarySimple::setGhostICs", "src/solution/solutionsimple.cpp:SolutionSimple::read"]}
{"id": "C83", "title": "Convection and pressure do no work, viscosity takes energy", "statement": "Weighted with the volumes of the velocity points, the product of a divergence-free velocity with its discrete convective term and with any discrete pressure gradient sums to zero if no fluid passes the walls, and the product of a velocity with its discrete viscous term is never positive if the walls are at rest.", "quantifier": "all meshes, distributions of the mesh, closed and periodic sides, divergence-free velocities, pressures, and all steps of runs with an exact Poisson solver", "why_tests_cant": "A test can only watch the energy of one flow, where round-off and the time scheme hide the work of a single term.", "anchors": ["src/operators/createconvection.cpp:ConvectionMult2D", "src/operators/createconvection.cpp:ConvectionMult3D", "src/operators/creategradient.cpp:createGradient", "src/operators/createlaplacian.cpp:createLaplacian"]}
{"id": "C84", "title": "The steps are stable for every time step", "statement": "In a run with walls at rest and exact solvers, a step does not increase the sum of the kinetic energy and theta dt^2 times the energy of the pressure gradient (theta the implicit weight of diffusion), for every time step; the energy is bounded for runs of any length. With convective terms c the increase in a step is no more than dt^2 times the energy of c on a uniform mesh.", "quantifier": "all meshes, distributions of the mesh, time steps, viscosities, initial fields and numbers of steps", "why_tests_cant": "Stability is a statement about all initial fields, all time steps and runs of any length.", "anchors": ["applications/navierstokes/navierstokes.cpp:NavierStokesSolver::advance", "applications/navierstokes/navierstokes.cpp:NavierStokesSolver::assembleRHSVelocity", "applications/navierstokes/navierstokes.cpp:NavierStokesSolver::applyDivergenceFreeVelocity", "applications/navierstokes/navierstokes.cpp:NavierStokesSolver::createOperators"]}
{"id": "C85", "title": "Linear solvers use their own matrix, fail when they diverge, and report every solve", "statement": "createLinSolver gives, for every configuration, either an error or a solver with the configured file (relative paths are relative to the directory of the run) that can be used. In a run every system is solved with its own current matrix, a solve that diverges stops the run with an error, and the file iterations-<start>.txt has one line per step with the numbers of iterations and residuals of the solves of exactly this step; apart from this file the run is the same as with solvers that are functions of matrix, guess and right-hand side.", "quantifier": "all configurations of the solvers, all behaviours of the external solvers, all meshes and numbers of steps; also with bodies at rest (decoupled and coupled solver) and moving bodies", "why_tests_cant": "The statement is about every configuration and every outcome of the external libraries, including failures that are hard to provoke.", "anchors": ["src/linsolver/linsolver.cpp:createLinSolver", "src/linsolver/linsolverksp.cpp:LinSolverKSP::init", "src/linsolver/linsolverksp.cpp:LinSolverKSP::solve", "src/linsolver/linsolverksp.cpp:LinSolverKSP::setMatrix", "applications/navierstokes/navierstokes.cpp:NavierStokesSolver::writeLinSolversInfo", "applications/decoupledibpm/decoupledibpm.cpp:DecoupledIBPMSolver::writeLinSolversInfo", "applications/rigidkinematics/rigidkinematics.cpp:RigidKinematicsSolver::moveBodies", "applications/ibpm/ibpm.cpp:IBPMSolver::write"]}
{"id": "C86", "title": "Steady flows stay", "statement": "A velocity and pressure that satisfy the discretised steady equations (mass balanced in every cell, convective term plus pressure gradient equal to the viscous term at every velocity point, boundary conditions met) are not changed by the time steps: the velocity stays exactly, the pressure up to a constant. In particular a uniform flow that the boundary conditions allow stays uniform.", "quantifier": "all meshes, boundary conditions, schemes, orders of the approximate inverse, numbers of processes, time steps and steps; exact linear solvers", "why_tests_cant": "A test has one flow, one mesh and rounding errors; exact invariance for every scheme and partition is a statement about all of them, and the disturbances found are small.", "anchors": ["applications/navierstokes/navierstokes.cpp:NavierStokesSolver::advance", "applications/navierstokes/navierstokes.cpp:NavierStokesSolver::assembleRHSVelocity", "applications/navierstokes/navierstokes.cpp:NavierStokesSolver::assembleRHSPoisson", "applications/navierstokes/navierstokes.cpp:NavierStokesSolver::applyDivergenceFreeVelocity", "src/boundary/singleboundaryconvective.cpp", "src/operators/createconvection.cpp:ConvectionMult2D"]}
{"id": "C87", "title": "A run with prescribed motion writes its files and continues after a restart as if it had not been interrupted", "statement": "A program built on RigidKinematicsSolver (init, ioInitialData, then advance and write until finished) that succeeds has made nt steps, each with the bodies at the positions of its time; it has left the solution, restart data and Lagrangian forces of the due steps, one line of forces per step, one file per body for the start and for every saved step, and has changed no other file. If it is stopped after step k and started again from the restart data of this step, it makes the steps of the uninterrupted run, with the same flow, forces, positions and velocities of the bodies, and the files of both runs together are those of the uninterrupted run.", "quantifier": "all motions that keep the numbers of points, all meshes, boundary and initial conditions, bodies, kernels, parameters, linear solvers, steps k and numbers of steps", "why_tests_cant": "Tests would have to run simulations with moving bodies for many motions and restart steps and compare all files; a comparison to a tolerance would not tell a delayed body from a rounding error.", "anchors": ["applications/rigidkinematics/rigidkinematics.cpp:RigidKinematicsSolver::init", "applications/rigidkinematics/rigidkinematics.cpp:RigidKinematicsSolver::advance", "applications/rigidkinematics/rigidkinematics.cpp:RigidKinematicsSolver::moveBodies", "applications/rigidkinematics/rigidkinematics.cpp:RigidKinematicsSolver::write", "applications/rigidkinematics/rigidkinematics.cpp:RigidKinematicsSolver::ioInitialData", "examples/api_examples/oscillatingcylinder2dRe100_GPU/main.cpp:main"]}
{"id": "C88", "title": "Results with immersed bodies do not depend on the number of processes", "statement": "Two runs of one configuration with immersed bodies that distribute mesh and bodies over different numbers of processes have, at every step, the same velocity at every velocity point, the same pressure up to a constant, the same positions of the bodies, the same force at every Lagrangian point and the same total force on every body; so does a run that is saved and continued with another number of processes. The rows of the delta operator are the same for every point.", "quantifier": "all meshes, distributions, bodies, kernels, boundary conditions, schemes, time steps, numbers of steps, and motions that treat both distributions alike; exact linear solvers", "why_tests_cant": "A test compares a few numbers of processes for one body on one mesh, and forces only to a tolerance; which points share a process with which others changes with every number.", "anchors": ["src/operators/createdelta.cpp:createDelta", "applications/decoupledibpm/decoupledibpm.cpp:DecoupledIBPMSolver::advance", "applications/decoupledibpm/decoupledibpm.cpp:DecoupledIBPMSolver::readRestartDataHDF5", "applications/rigidkinematics/rigidkinematics.cpp:RigidKinematicsSolver::advance", "applications/navierstokes/navierstokes.cpp:NavierStokesSolver::advance", "src/body/bodypack.cpp:BodyPackBase::getPackedGlobalIndex", "src/body/bodypack.cpp:BodyPackBase::calculateAvgForces"]}
{"id": "C89", "title": "A configuration gives the simulation it describes, or an error", "statement": "If the mesh section has one entry with increasing ends for each of two or three directions, and the boundary conditions give one condition for every component at every face, with the same periodic directions for all components, the mesh and boundary objects of the run are complete, have the lines and conditions of the file, and the run reaches its last step if the linear solvers return. The creation of the objects ends with an error for every other configuration (a missing section or condition, periodic conditions that do not agree, ends that decrease, a process grid that is too fine).", "quantifier": "all mesh and boundary sections, process grids, parameters, initial conditions and linear solvers", "why_tests_cant": "Tests use correct configurations; what happens with each kind of mistake is not tested, and an object that is only half initialised shows its effect elsewhere.", "anchors": ["src/mesh/mesh.cpp:createMesh", "src/mesh/cartesianmesh.cpp:CartesianMesh::CartesianMesh", "src/mesh/cartesianmesh.cpp:CartesianMesh::init", "src/boundary/boundary.cpp:createBoundary", "src/boundary/boundarysimple.cpp:BoundarySimple::init", "src/boundary/singleboundary.cpp:createSingleBoundary", "applications/navierstokes/navierstokes.cpp:NavierStokesSolver::init"]}
{"id": "C90", "title": "writemesh writes the gridlines that the configuration describes", "statement": "For a valid configuration writemesh writes one file (the option -file, or grid.h5 in the output directory) and changes no other. For every direction it has the ends of the cells of all sub-domains from the start to the last end, the middles of the cells for the pressure and the components along the other directions, and the ends inside the domain (periodic: also the last end) for the component along this direction. The file is the same for every number of processes.", "quantifier": "all mesh sections, boundary conditions, process grids, options and previous contents of the disk", "why_tests_cant": "A test compares one grid file; the combinations of sub-domains, stretching, periodic directions, orders of the entries and process grids are unbounded.", "anchors": ["applications/writemesh/main.cpp:main", "src/mesh/cartesianmesh.cpp:CartesianMesh::write", "src/mesh/cartesianmesh.cpp:CartesianMesh::init", "src/parser/parser.cpp:parseMesh", "src/io/io.cpp:writeHDF5Vecs"]}
{"id": "C91", "title": "Bodies at rest give no energy to the flow in the coupled solver", "statement": "With closed or periodic sides and exact solvers, neither the pressure nor the body forces do work on the velocity after a step of the coupled solver. With walls and bodies at rest and implicit diffusion every step satisfies an exact energy balance, in which the reaction of pressure and bodies (the pressure gradient minus the spread forces) takes the place of the pressure gradient. Without convective terms the sum of the kinetic energy and the energy of the reaction never grows, whatever the time step, and the kinetic energy never exceeds that of the initial velocity.", "quantifier": "all meshes, process grids, bodies, kernels, initial velocities, time steps, viscosities and numbers of steps", "why_tests_cant": "Stability for every time step, body and number of steps is a statement about infinitely many runs; a test sees one run of finite length, and a body force with a wrong sign or weight may grow slowly.", "anchors": ["applications/ibpm/ibpm.cpp:IBPMSolver::createOperators", "applications/ibpm/ibpm.cpp:IBPMSolver::assembleRHSPoisson", "applications/navierstokes/navierstokes.cpp:NavierStokesSolver::advance", "src/operators/createdelta.cpp:createDelta"]}
{"id": "C92", "title": "Bodies at rest give no energy to the flow in the decoupled solver", "statement": "With closed or periodic sides, bodies at rest and exact solvers, every step of the decoupled solver after the first one loses of the sum of the kinetic energy and the energy of the pressure gradient exactly the energies of the changes of the velocity and of the pressure gradient, if there is no viscosity and no convection; the forces do not enter. So the kinetic energy stays bounded in runs of any length and for every time step, although the three systems are solved one after the other.", "quantifier": "all meshes, process grids, bodies, kernels, initial velocities, time steps and numbers of steps", "why_tests_cant": "The split into a force step and a pressure step violates one constraint while it enforces the other; that this never produces energy for any body, mesh and time step cannot be seen from finitely many runs.", "anchors": ["applications/decoupledibpm/decoupledibpm.cpp:DecoupledIBPMSolver::advance", "applications/decoupledibpm/decoupledibpm.cpp:DecoupledIBPMSolver::assembleRHSVelocity", "applications/decoupledibpm/decoupledibpm.cpp:DecoupledIBPMSolver::applyNoSlip", "applications/decoupledibpm/decoupledibpm.cpp:DecoupledIBPMSolver::updateForces"]}
{"id": "C93", "title": "Runs with bodies do not stop: the systems for forces and pressure have solutions", "statement": "For an approximate inverse of a good order the force system has a solution exactly for those right-hand sides that are orthogonal to the forces that spread to zero, and the composite system of the coupled solver exactly for those that are orthogonal to the pressures and forces whose gradient and spread force are the same. So with bodies at rest and linear solvers that find solutions where there are any, the decoupled solver never stops if the prescribed fluxes cancel, whatever the points of the bodies (also if they coincide); the coupled solver never stops if all sides are closed or periodic, or if the prescribed fluxes cancel and no forces spread to a pressure gradient. With prescribed motion of the bodies the decoupled solver makes n steps exactly if at each time the new positions have a delta operator and the forces that spread to zero do no work on the prescribed velocities; two points that meet with different velocities stop the run.", "quantifier": "all meshes, process grids, bodies (with any points), kernels, initial states, right-hand sides and numbers of steps", "why_tests_cant": "Whether a singular system has a solution depends on the right-hand side of every step; tests use bodies with well separated points, for which the matrices are regular.", "anchors": ["applications/decoupledibpm/decoupledibpm.cpp:DecoupledIBPMSolver::solveForces", "applications/decoupledibpm/decoupledibpm.cpp:DecoupledIBPMSolver::assembleRHSForces", "applications/ibpm/ibpm.cpp:IBPMSolver::createOperators", "applications/ibpm/ibpm.cpp:IBPMSolver::assembleRHSPoisson", "applications/rigidkinematics/rigidkinematics.cpp:RigidKinematicsSolver::assembleRHSForces", "applications/rigidkinematics/rigidkinematics.cpp:RigidKinematicsSolver::moveBodies", "applications/navierstokes/navierstokes.cpp:NavierStokesSolver::solvePoisson"]}
{"id": "C94", "title": "Converged runs satisfy the steady equations", "statement": "If the velocity with its ghost values is the same at three consecutive levels of a run with exact solvers, and pressure (up to a constant) and body forces are the same at the last two, then this state satisfies the steady discretised equations, whatever the time step and the order of the approximate inverse: the momentum of every velocity point is balanced by the convective terms, the pressure gradient, the viscous terms and the spread forces, the divergence of every cell is zero, the boundary conditions hold without their terms in time, and the velocity at the points of the bodies is that of the bodies.", "quantifier": "all meshes, process grids, boundary types, schemes, time steps, orders of the approximate inverse, bodies, kernels and motions", "why_tests_cant": "A converged state that depends on the time step looks like a plausible steady flow; tests compare it with reference data to a tolerance and for one time step.", "anchors": ["applications/navierstokes/navierstokes.cpp:NavierStokesSolver::advance", "applications/navierstokes/navierstokes.cpp:NavierStokesSolver::assembleRHSVelocity", "applications/navierstokes/navierstokes.cpp:NavierStokesSolver::applyDivergenceFreeVelocity", "applications/decoupledibpm/decoupledibpm.cpp:DecoupledIBPMSolver::advance", "applications/rigidkinematics/rigidkinematics.cpp:RigidKinematicsSolver::advance", "src/timeintegration/timeintegration.cpp:createTimeIntegration", "src/boundary/singleboundaryconvective.cpp"]}
{"id": "C95", "title": "The step for the velocity creates no new extrema", "statement": "With an exact velocity solver the intermediate velocity of a step has, in every component, no value above all the values that its explicit terms (old velocity, pressure gradient, convective terms, explicit part of diffusion, spread forces) and the boundary conditions give, and none below all of them. Without driving by pressure and convective terms the bounds of the old velocity carry over, for implicit Euler diffusion with any time step, for explicit diffusion if the time step is small compared with the mesh.", "quantifier": "all meshes, process grids, boundary types and values, time steps, viscosities, histories of the run, bodies and motions", "why_tests_cant": "Overshoots appear only for particular ratios of time step, viscosity and local mesh width, and stay hidden below the tolerance of comparisons; a wrong sign or weight in the matrix or in the ghost equations breaks the bound at single points.", "anchors": ["applications/navierstokes/navierstokes.cpp:NavierStokesSolver::createOperators", "applications/navierstokes/navierstokes.cpp:NavierStokesSolver::assembleRHSVelocity", "applications/navierstokes/navierstokes.cpp:NavierStokesSolver::solveVelocity", "src/operators/createlaplacian.cpp:createLaplacian", "src/boundary/singleboundarydirichlet.cpp", "src/boundary/singleboundaryneumann.cpp", "src/boundary/singleboundaryconvective.cpp"]}
{"id": "C96", "title": "Each entry of `probes` creates the probe it describes", "statement": "For each entry of the list `probes` the solver creates a probe of the field, at the point or in the box, with the sampling times, the window and the file format that the entry asks for, with the documented defaults, and a new file below the output directory with grid lines and indices of the box. Entries with unknown names, missing keys or a file that cannot be created are reported before the run starts.", "quantifier": "all meshes, process grids, lists of entries, and sets of files that can be created", "why_tests_cant": "Tests use a handful of correct configuration files; wrong names, missing keys and directories without write permission are not among them, and the silent replacement of an unknown name by a default one still produces a plausible file.", "anchors": ["src/misc/probes.cpp:createProbe", "src/misc/probes.cpp:ProbeBase::init", "src/misc/probes.cpp:ProbeVolume::init", "src/misc/probes.cpp:ProbeVolume::writeGrid", "src/misc/probes.cpp:ProbeVolume::writeIS", "src/misc/probes.cpp:ProbePoint::init", "src/misc/type.cpp:str2ProbeType", "applications/navierstokes/navierstokes.cpp:NavierStokesSolver::init"]}
{"id": "C97", "title": "The files of the probes hold what was asked for, for every run", "statement": "After any run with any number of probes, the file of each volume probe holds the grid lines and indices of its box and, for each complete window, the time, the number of samples and the means (without window: time and values of each step that is due); the file of each point probe holds one line per step that is due, with the time and the interpolated value. No other file is changed.", "quantifier": "all meshes, process grids, lists of entries with different files, and sequences of time steps", "why_tests_cant": "Only combinations of several probes, windows, periods and formats in one run show a file that is shared, a wrong count or a missing line; tests run single probes over a few steps.", "anchors": ["src/misc/probes.cpp:ProbeBase::monitor", "src/misc/probes.cpp:ProbeVolume::monitorVec", "src/misc/probes.cpp:ProbeVolume::writeVec", "src/misc/probes.cpp:ProbeVolume::writeVec_HDF5", "src/misc/probes.cpp:ProbeVolume::writeVec_ASCII", "src/misc/probes.cpp:ProbePoint::monitorVec", "applications/navierstokes/navierstokes.cpp:NavierStokesSolver::monitorProbes"]}
{"id": "C98", "title": "A flow does not depend on the units in which its configuration is written", "statement": "A configuration in other units (lengths of the mesh times len, boundary and initial velocities times vel, prescribed derivatives times vel/len, viscosity times len*vel, time step and initial time times len/vel, initial pressure times vel^2) has the same mesh and ghost points and gives, at every step, the velocities times vel, the pressures times vel^2 and the times times len/vel; a step that fails in one run fails in the other. The same holds for a restart from a file in those units, and for the solvers with bodies at rest or in prescribed motion (coordinates times len): their forces are those of the first run times vel^2*len^(dim-1), and moving bodies are at the same places.", "quantifier": "all positive factors, meshes in two and three dimensions, process grids, boundary types, time schemes, orders of BN, both types of linear solver, and numbers of steps, for linear solvers that do not depend on the factors of their systems", "why_tests_cant": "A wrong power of a mesh width, a missing time step or viscosity in one operator, or a constant with a unit shows only in runs whose lengths, velocities and times have different factors; the regression cases use unit lengths and velocities, for which such errors cancel or are hidden.", "anchors": ["applications/navierstokes/navierstokes.cpp:NavierStokesSolver::advance", "applications/navierstokes/navierstokes.cpp:NavierStokesSolver::createOperators", "src/operators/createlaplacian.cpp:createLaplacian", "src/operators/creategradient.cpp:createGradient", "src/operators/createdivergence.cpp:createDivergence", "src/operators/createconvection.cpp:createConvection", "src/operators/createbn.cpp:createBnHead", "src/boundary/singleboundaryconvective.cpp:SingleBoundaryConvective::updateEqsKernel", "src/boundary/singleboundaryneumann.cpp:SingleBoundaryNeumann::updateEqsKernel", "src/operators/createdelta.cpp:createDelta", "applications/decoupledibpm/decoupledibpm.cpp:DecoupledIBPMSolver::advance", "applications/ibpm/ibpm.cpp:IBPMSolver::createOperators", "applications/rigidkinematics/rigidkinematics.cpp:RigidKinematicsSolver::advance"]}
{"id": "C99", "title": "A run depends neither on the origin of coordinates nor on the time at its start", "statement": "If all starts and ends in the section `mesh`, the coordinates of the bodies and their motion are moved by one vector, the expressions of the initial conditions are moved with them, and another initial time `t` is set, then the mesh has the same numbers and widths of cells, and the whole program (initialisation, restart, time steps, output) gives the same velocities, pressures and forces and the same HDF5 files, in which only the times differ by the difference of the initial times. It stops with the same error in the same cases. The text file with the forces is the same if the time is.", "quantifier": "all vectors and times, meshes in two and three dimensions, process grids, boundary types, time schemes, bodies, kernels, motions, contents of the restart files, linear solvers and numbers of steps", "why_tests_cant": "A coordinate used instead of a difference of coordinates, or the time used instead of a time difference, has no effect in cases whose domain starts at the origin or is symmetric about it, as in most of the examples, and an image of a point across a periodic boundary is wrong only for bodies near it.", "anchors": ["src/parser/parser.cpp:parseSubDomains", "src/mesh/cartesianmesh.cpp:CartesianMesh::createPressureMesh", "src/mesh/cartesianmesh.cpp:CartesianMesh::createVelocityMesh", "src/operators/createlaplacian.cpp:createLaplacian", "src/operators/createdelta.cpp:getEulerianNeighbors", "src/operators/createdelta.cpp:createDelta", "src/body/singlebodypoints.cpp:SingleBodyPoints::updateMeshIdx", "src/solution/solutionsimple.cpp:SolutionSimple::setInitialConditions", "applications/navierstokes/navierstokes.cpp:NavierStokesSolver::advance", "applications/decoupledibpm/decoupledibpm.cpp:DecoupledIBPMSolver::advance", "applications/rigidkinematics/rigidkinematics.cpp:RigidKinematicsSolver::moveBodies"]}
{"id": "C100", "title": "petibm-vorticity treats every file of a run on its own", "statement": "The program petibm-vorticity, used on the files of a run, ends without error if the solution of every visited step can be read. The file of each visited step gets the vorticity of the velocity in this file, the same as from a separate process with new vectors and boundary objects, and keeps its other data sets and its time; the grid file gets the lines of the vorticity fields; no other file changes. It stops with the error of the first file that cannot be read. A second execution changes nothing. After a successful run of a solver with the same configuration (start step a multiple of nsave) and without options, all saved steps are treated.", "quantifier": "all meshes, process grids, boundary types, ranges and increments of the steps, and contents of the files", "why_tests_cant": "Vectors, ghost points and equations that are kept over the time steps can carry values from one file to the next; tests look at one file, mostly the first or the last, or at pictures.", "anchors": ["applications/vorticity/main.cpp:main", "applications/vorticity/main.cpp:calculateVorticity2D", "applications/vorticity/main.cpp:calculateVorticity3D", "src/solution/solutionsimple.cpp:SolutionSimple::read", "src/boundary/boundarysimple.cpp:BoundarySimple::setGhostICs", "src/io/io.cpp:readHDF5Vecs", "src/io/io.cpp:writeHDF5Vecs"]}
{"id": "C101", "title": "Momentum of runs: conserved without walls and bodies, otherwise lost to the reported forces", "statement": "Along a direction in which no side of the domain holds back the flow (periodic, and slip walls in the other directions) a step of the flow solver leaves the total momentum of the velocity unchanged, for all schemes, whatever the Poisson solver returns. With bodies (decoupled, coupled, moving) a step changes the momentum by the step size times the spread forces, and if the bodies are away from the sides and the mesh is uniform there, the change per time is minus the sum of the forces that the program reports for the bodies.", "quantifier": "all meshes with at least three cells in periodic directions, process grids, viscosities, step sizes, schemes, initial flows, bodies and motions, and all steps", "why_tests_cant": "A balance over a whole run involves convection, diffusion, pressure, the forces and their report together, on stretched meshes too; tests compare forces with tables from the literature with large tolerances.", "anchors": ["applications/navierstokes/navierstokes.cpp:NavierStokesSolver::advance", "applications/navierstokes/navierstokes.cpp:NavierStokesSolver::assembleRHSVelocity", "applications/decoupledibpm/decoupledibpm.cpp:DecoupledIBPMSolver::advance", "applications/rigidkinematics/rigidkinematics.cpp:RigidKinematicsSolver::advance", "src/operators/createlaplacian.cpp:createLaplacian", "src/operators/createconvection.cpp:createConvection", "src/operators/creategradient.cpp:createGradient", "src/body/bodypack.cpp:BodyPackBase::calculateAvgForces"]}
{"id": "C102", "title": "Axes may be renamed and mirrored", "statement": "A configuration can be written down in another system of coordinates: with other names of the axes and, between walls, with opposite orientations, the cells of a mirrored axis in reverse order, boundary conditions at the corresponding sides with the signs of the components, and initial conditions as functions of the new coordinates. A run of the second configuration then has, at every step, the velocity of a run of the first one with the corresponding component and sign at every point, and its pressure up to a constant. A configuration that a mirroring, a rotation by right angles or an exchange of axes does not change has velocities and pressures with that symmetry at every step.", "quantifier": "all two- and three-dimensional meshes, permutations and mirrorings of axes, process grids of both runs, boundary conditions, initial conditions, schemes, and all steps", "why_tests_cant": "Loops and index formulas are written separately for each direction and each side; a wrong index in one of them only shows when flows in different directions are compared, and only in some geometry. Tests run a few flows in one orientation.", "anchors": ["applications/navierstokes/navierstokes.cpp:NavierStokesSolver::advance", "src/mesh/cartesianmesh.cpp:CartesianMesh::createVelocityMesh", "src/operators/createlaplacian.cpp:createLaplacian", "src/operators/creategradient.cpp:createGradient", "src/operators/createdivergence.cpp:createDivergence", "src/operators/createconvection.cpp:createConvection", "src/boundary/singleboundarybase.cpp:SingleBoundaryBase::init", "src/solution/solutionsimple.cpp:SolutionSimple::setInitialConditions"]}
{"id": "C103", "title": "Names of enumerators are read and written consistently", "statement": "Directions, fields, types and locations of boundary conditions and types of probes: what a name stands for, and how an enumerator is written, never depends on earlier look-ups, although looking up an unknown name changes the global map; writing an enumerator and reading it back gives the same one.", "quantifier": "all names, all enumerators, all histories of look-ups", "why_tests_cant": "the maps are global and mutable; tests look up few names in one order", "anchors": ["src/misc/type.cpp:str2bl", "src/parser/parser.cpp:convert"]}
{"id": "C104", "title": "Plane Couette flow is kept exactly", "statement": "Between parallel sides that move with the fluid or give its shear, a flow along one axis whose velocity grows linearly with the position along another axis, with the same pressure everywhere, is not changed by any time step, whatever the mesh, the time schemes and the number of processes; so a linear initial velocity of the configuration stays.", "quantifier": "all meshes (stretched or not), two and three dimensions, positions of the sides, velocities, schemes, orders of the approximate inverse, numbers of processes, time steps and steps; exact linear solvers", "why_tests_cant": "A comparison with the analytical solution on some meshes has a tolerance that hides a ghost value or a width that is wrong by little; exactness on all meshes needs the algebra of ghost values, coordinates and widths together.", "anchors": ["applications/navierstokes/navierstokes.cpp:NavierStokesSolver::advance", "src/operators/createlaplacian.cpp", "src/operators/createconvection.cpp:ConvectionMult2D", "src/boundary/singleboundarydirichlet.cpp", "src/boundary/singleboundaryneumann.cpp", "src/mesh/cartesianmesh.cpp:CartesianMesh::createVelocityMesh"]}
{"id": "C105", "title": "A plane flow in three dimensions is the two-dimensional flow", "statement": "Take a two-dimensional configuration and continue it in a third direction, periodic or between planes where the fluid slips, with initial conditions that do not depend on the third coordinate and a third component zero. At every step the velocity of the three-dimensional run is, in every layer of cells, the velocity of the two-dimensional run, the third component is zero, and the pressures agree up to a constant, whatever the heights of the layers and the numbers of processes.", "quantifier": "all two-dimensional meshes, boundary conditions, initial flows, schemes, orders of the approximate inverse; all numbers and heights of layers, process grids of both runs, and all steps; exact linear solvers", "why_tests_cant": "The code has separate branches, kernels and loops for two and three dimensions, and the two-dimensional mesh uses a dummy third axis of width one; the test cases use one or the other, and no test compares them.", "anchors": ["applications/navierstokes/navierstokes.cpp:NavierStokesSolver::advance", "src/operators/createconvection.cpp:ConvectionMult2D", "src/operators/createconvection.cpp:ConvectionMult3D", "src/operators/createdivergence.cpp:createDivergence", "src/operators/createlaplacian.cpp:createLaplacian", "src/mesh/cartesianmesh.cpp:CartesianMesh::createVelocityMesh", "src/boundary/singleboundaryneumann.cpp", "src/solution/solutionsimple.cpp:SolutionSimple::setInitialConditions"]}
{"id": "C106", "title": "Without convective terms the runs superpose, and do not amplify differences", "statement": "Take three configurations on the same mesh, with the same parameters and types of boundary conditions and without explicit convective terms; the boundary values and the initial fields of the third are a combination of those of the other two. The operators are the same, and at every step the velocity of the third run is the same combination of the velocities of the others, and the pressure is, up to a constant. So two such runs in the same closed domain from different initial fields stay close to each other for all time, whatever the time step. With bodies at rest in the decoupled solver the forces that act on the fluid superpose too; in the coupled solver the gradients of the pressures less these forces do. With bodies in the same prescribed motion, forces and flow superpose together with the prescribed velocities, if the forces are determined.", "quantifier": "all meshes, process grids, types and values of boundary conditions including convective outlets of equal speed, initial fields, factors, diffusion schemes, both Poisson systems, and all steps; exact linear solvers", "why_tests_cant": "A test compares single runs with stored results; linearity relates three runs for all factors, and a term that is added twice, or an offset that is not scaled with the boundary values, breaks it only for factors that no test uses.", "anchors": ["applications/navierstokes/navierstokes.cpp:NavierStokesSolver::advance", "src/boundary/singleboundarydirichlet.cpp", "src/boundary/singleboundaryneumann.cpp", "src/boundary/singleboundaryconvective.cpp", "src/operators/createbn.cpp:createBnHead", "src/operators/createlaplacian.cpp:createLaplacian", "src/timeintegration/timeintegration.cpp:TimeIntegrationBase", "src/solution/solutionsimple.cpp:SolutionSimple::setInitialConditions", "applications/decoupledibpm/decoupledibpm.cpp:DecoupledIBPMSolver::assembleRHSForces", "applications/rigidkinematics/rigidkinematics.cpp:RigidKinematicsSolver::assembleRHSForces", "applications/ibpm/ibpm.cpp:IBPMSolver::assembleRHSPoisson"]}
{"id": "C107", "title": "The flow does not depend on the linear solvers", "statement": "Two runs of one configuration, from the initial conditions or from a file, whose linear solvers solve their systems, whatever solutions they choose and whatever guess they start from, have the same velocities, ghost points and explicit terms at every step, and pressures that differ by a constant. The same holds for a run with the Poisson solver of PETSc and one with that of AmgX, which pins a cell, if the fluxes through the walls cancel. With bodies at rest in the decoupled solver, whatever solutions of the force system are chosen, the flow and the forces that act on the fluid are the same; with moving bodies this holds if the forces are determined. In the coupled solver the velocities and the gradient of the pressure less the forces on the grid are the same; if no forces spread to a gradient, the forces are the same and the pressures differ by a constant.", "quantifier": "all meshes, process grids, boundary conditions, schemes, orders of the approximate inverse, initial data and restarts; all pairs of exact solvers; all steps", "why_tests_cant": "A test runs one solver; that the choice among infinitely many pressures, and the type of the solver, never reach the velocity concerns all pairs of solvers and all lengths of runs.", "anchors": ["applications/navierstokes/navierstokes.cpp:NavierStokesSolver::advance", "applications/navierstokes/navierstokes.cpp:NavierStokesSolver::solveVelocity", "applications/navierstokes/navierstokes.cpp:NavierStokesSolver::solvePoisson", "applications/navierstokes/navierstokes.cpp:NavierStokesSolver::applyDivergenceFreeVelocity", "applications/navierstokes/navierstokes.cpp:NavierStokesSolver::setNullSpace", "applications/decoupledibpm/decoupledibpm.cpp:DecoupledIBPMSolver::advance", "applications/decoupledibpm/decoupledibpm.cpp:DecoupledIBPMSolver::solveForces", "applications/rigidkinematics/rigidkinematics.cpp:RigidKinematicsSolver::advance", "applications/ibpm/ibpm.cpp:IBPMSolver::assembleRHSPoisson", "applications/ibpm/ibpm.cpp:IBPMSolver::createOperators"]}
{"id": "C108", "title": "The residual of the velocity system bounds the error of the intermediate velocity", "statement": "A vector that satisfies the velocity system up to residuals of at most e differs from the solution by at most dt e at every point, whatever the mesh, the viscosity, the scheme and the time step. So a step in which the system is solved to this tolerance has an intermediate velocity within dt e of that of the exact step from the same state.", "quantifier": "all meshes, boundary conditions, viscosities, schemes, time steps, states reached by any run, tolerances and solvers", "why_tests_cant": "A test measures one residual and one error; the bound with a constant that does not depend on the mesh is a statement about the inverses of all matrices.", "anchors": ["applications/navierstokes/navierstokes.cpp:NavierStokesSolver::createOperators", "applications/navierstokes/navierstokes.cpp:NavierStokesSolver::assembleRHSVelocity", "applications/navierstokes/navierstokes.cpp:NavierStokesSolver::solveVelocity", "src/operators/createlaplacian.cpp:createLaplacian"]}
{"id": "C109", "title": "What mesh, bodies, solution and solvers print about themselves is true and complete", "statement": "The text printed by printInfo contains, in the order of the ranks, exactly the texts of the processes. For the mesh it has the dimension, the domain, the numbers of points of all grids and the process grid, and the ranges [begin, end) that it lists put every point of every grid on exactly one process, its owner. For a body it has name, file, number of points, and the listed ranges put every point on exactly one process, its owner. The solution prints the lengths of its vectors, a linear solver its type and configuration file. Names are printed as they are.", "quantifier": "for all layouts in two and three dimensions, process grids and distributions, all bodies and numbers of processes, all names and paths of files, all ways to print a real number", "why_tests_cant": "A test compares the printed text for one mesh and number of processes with a stored one; it does not use names that have a meaning for printf, and does not show that the listed ranges cover the grid for every distribution.", "anchors": ["src/mesh/cartesianmesh.cpp:358-435", "src/mesh/mesh.cpp:75-83", "src/io/io.cpp:120-135", "src/body/singlebodypoints.cpp:121-154", "src/body/singlebody.cpp:72-81", "src/body/bodypack.cpp:174-209", "src/solution/solutionsimple.cpp:60-87", "src/linsolver/linsolver.cpp:29-46"]}
{"id": "C110", "title": "PETSc objects are released exactly once", "statement": "In every run of the four solvers, for every order of BN, every time scheme, every kind of linear solver, any number of steps and any pattern of output: no object is used or released after it was freed, no uninitialised or null pointer is used, the number of objects does not grow with the number of steps, and destroy() releases every object; destroy() may be called again. Helper functions and probes release what they create.", "quantifier": "all numbers of steps, all orders of BN, all output patterns, all solver kinds and schemes", "why_tests_cant": "a leak or a use after release shows only under a memory checker, for the order, solver and output pattern that was run; the number of steps and the order of BN are unbounded", "anchors": ["applications/navierstokes/navierstokes.cpp:38-91", "applications/navierstokes/navierstokes.cpp:317-430", "applications/decoupledibpm/decoupledibpm.cpp:36-55", "applications/decoupledibpm/decoupledibpm.cpp:149-230", "applications/rigidkinematics/rigidkinematics.cpp:34-140", "applications/ibpm/ibpm.cpp:37-384", "src/operators/createbn.cpp:19-220", "src/linsolver/linsolverksp.cpp:23-107", "src/misc/probes.cpp:57-237", "src/misc/probes.cpp:489-686"]}
