{"id": "C01", "title": "Exact rational arithmetic in canonical form", "statement": "A rational built from an integer pair with non-zero denominator, or obtained from such values by the compound and mixed add/subtract/multiply/divide operators, represents the exact mathematical value of the operation and is stored in lowest terms with a positive denominator, so that two rationals compare equal exactly when their values are equal.", "quantifier": "all integer numerators and non-zero denominators and all finite sequences of operations whose intermediate values do not overflow", "why_tests_cant": "infinitely many pairs and operation sequences; a sample cannot show canonical form is preserved by every operation", "anchors": ["scisim/Math/Rational.h: Rational::simplify, Rational::GCD, operator+=, operator-=, operator*=, operator/=, operator==, positive, nonNegative, isInteger"]}
{"id": "C02", "title": "Time-step strings are read exactly", "statement": "Reading a decimal literal such as '0.01' or '-3.250', an integer literal, or a fraction 'a/b' as a rational yields exactly the number the string denotes.", "quantifier": "all decimal, integer and fraction literals of any length (digits, optional sign)", "why_tests_cant": "the set of literals is infinite; sign, empty integer part and trailing zeros interact", "anchors": ["scisim/Math/Rational.h: extractFromString", "scisim/StringUtilities.cpp: splitAtLastCharacterOccurence, trimCharacterRight, computeNumCharactersToRight"]}
{"id": "C03", "title": "Malformed rational strings are rejected", "statement": "A string that is not a decimal, integer or fraction literal (for example one with two slashes or two periods, or a fraction with denominator zero) is reported as a failure and never silently turned into a number.", "quantifier": "all strings", "why_tests_cant": "there are infinitely many malformed strings; rejecting the ones in a test list says nothing about the others", "anchors": ["scisim/Math/Rational.h: extractFromString"]}
{"id": "C04", "title": "Tokenising and trimming lose no text", "statement": "Splitting a non-empty string at a delimiter and joining the pieces with that delimiter gives back the original string, no piece contains the delimiter, and trimming removes exactly a maximal run of whitespace at the ends.", "quantifier": "all non-empty strings and delimiters", "why_tests_cant": "all strings of all lengths, including leading, trailing and repeated delimiters", "anchors": ["scisim/StringUtilities.cpp: tokenize, trim, trimFront, trimBack, removeWhiteSpace, splitAtLastCharacterOccurence, trimCharacterRight"]}
{"id": "C05", "title": "Binary codec round trip", "statement": "Every value written by the binary serialisers (integers, scalars, booleans, strings, vectors of plain values, of strings and of structured objects, boolean vectors, dense vectors and matrices, sparse matrices) is read back unchanged, and reading consumes exactly the bytes that were written, whatever follows them in the stream.", "quantifier": "all values of each type, all sizes, all following bytes", "why_tests_cant": "values are unbounded in size and the composability claim quantifies over every following byte string", "anchors": ["scisim/Utilities.h: serialize, deserialize, serializeBuiltInType", "scisim/Utilities.cpp", "scisim/Math/MathUtilities.h", "scisim/Math/MathUtilities.cpp: serialize, deserialize", "scisim/StringUtilities.cpp: serialize, deserialize"]}
{"id": "C06", "title": "2D ball simulation snapshot round trip", "statement": "Saving a 2D ball simulation and loading it back yields the same positions, velocities, radii, fixed flags, masses, static geometry, portals, forces and cached impulses.", "quantifier": "all simulation states: any number of balls, planes, drums, portals, forces and cached impulses", "why_tests_cant": "states are unbounded in size and shape, and the format has no length checks", "anchors": ["ball2d/Ball2DState.cpp: serialize, deserialize", "ball2d/Ball2DSim.cpp: serialize, deserialize", "ball2d/ConstraintCache.cpp: serialize, deserialize"]}
{"id": "C07", "title": "2D rigid body simulation snapshot round trip", "statement": "Saving a 2D rigid body simulation and loading it back yields the same configuration, velocities, masses, fixed flags, geometry, geometry indices, forces, planes and portals, together with the impulse cache.", "quantifier": "all simulation states of any size", "why_tests_cant": "states are unbounded in size and shape", "anchors": ["rigidbody2d/RigidBody2DState.cpp: serialize, deserialize", "rigidbody2d/RigidBody2DSim.cpp: serialize, deserialize", "rigidbody2d/ConstraintCache.cpp"]}
{"id": "C08", "title": "Solver configuration survives a snapshot", "statement": "Every solver configuration that can be saved (integrator, impact operator with its inner solver, impact map, friction solver, impact-friction map) is restored by loading the snapshot to the same configuration, and a configuration that cannot be restored is never saved silently.", "quantifier": "all nestings of solver configurations and parameters", "why_tests_cant": "configurations nest to any depth and name tables on the two sides are maintained by hand", "anchors": ["scisim/ConstrainedMaps/ConstrainedMapUtilities.cpp", "ball2d/Ball2DUtilities.cpp", "scisim/ConstrainedMaps/ImpactMaps/GROperator.cpp: serialize", "scisim/ConstrainedMaps/ImpactMaps/GRROperator.cpp: serialize", "scisim/ConstrainedMaps/StaggeredProjections.cpp: serialize"]}
{"id": "C09", "title": "Impulse cache behaves as a map", "statement": "Asking the cache for a contact's impulse returns the impulse stored for that same contact since the last clear, the zero impulse if none was stored, and is unaffected by impulses stored for other contacts; saving and loading the cache does not change any answer.", "quantifier": "all histories of store, clear, save and load operations over all contacts", "why_tests_cant": "histories are unbounded and two different contacts may share the key used by the cache", "anchors": ["ball2d/ConstraintCache.cpp", "rigidbody2d/ConstraintCache.cpp", "rigidbody3d/ConstraintCache.cpp"]}
{"id": "C10", "title": "Resuming from a snapshot reproduces the run", "statement": "A run resumed from any snapshot written by an earlier run produces, from that snapshot's frame on, the same output frames with the same numbers and the same contents as the uninterrupted run.", "quantifier": "all deterministic step functions, all end times, save rates, and all snapshots of the run", "why_tests_cant": "it compares complete unbounded executions for every crash point", "anchors": ["ball2dcli/ball2d_cli.cpp: serializeSystem, deserializeSystem, exportConfigurationData, stepSystem, executeSimLoop, main", "rigidbody2dcli/rigidbody2d_cli.cpp", "rigidbody3dcli/rigidbody3d_cli.cpp"]}
{"id": "C11", "title": "Output frames are complete, contiguous and correctly timed", "statement": "A run to end time T with n steps per frame writes frames 0,1,2,... without gaps or repeats; frame k holds the state after k*n steps; and the run stops after the first step count whose simulated time reaches T (when constraint forces are also written, one further step is taken, which computes the forces of the last frame).", "quantifier": "all end times, time steps, and numbers of steps per frame, and all step functions", "why_tests_cant": "an invariant over unboundedly many loop iterations", "anchors": ["ball2dcli/ball2d_cli.cpp: exportConfigurationData, stepSystem, executeSimLoop"]}
{"id": "C12", "title": "Frame file names sort chronologically", "statement": "Within a run the output file names of different frames differ, all have the same length, and their alphabetical order is the order in which the frames were written.", "quantifier": "all end times, time steps and output frequencies of finite runs, all frames of the run", "why_tests_cant": "the width is computed once at start-up and must suffice for the largest frame of every run", "anchors": ["ball2dcli/ball2d_cli.cpp: generateOutputConfigurationDataFileName, main", "scisim/Math/MathUtilities.cpp: computeNumDigits"]}
{"id": "C13", "title": "A crash never destroys an earlier snapshot", "statement": "If the process dies at any point while writing a snapshot, the most recent complete snapshot from before is still on disk and loadable.", "quantifier": "all crash points within any sequence of snapshot writes, in both the numbered and the overwrite mode", "why_tests_cant": "crash points are at every byte written; tests cannot enumerate them for every state", "anchors": ["ball2dcli/ball2d_cli.cpp: serializeSystem, exportConfigurationData"]}
{"id": "C14", "title": "Broad phase returns exactly the overlapping pairs", "statement": "The spatial-grid broad phase returns a pair (i,j) exactly when i<j and the two axis-aligned boxes overlap, each pair once; it agrees with testing all pairs.", "quantifier": "all lists of boxes (any number, sizes, positions) in 2D and 3D", "why_tests_cant": "geometric configurations are unbounded, and the grid resolution depends on all boxes at once", "anchors": ["ball2d/SpatialGridDetector.cpp: getPotentialOverlaps", "rigidbody2d/SpatialGrid.cpp", "rigidbody3d/SpatialGridDetector.cpp"]}
{"id": "C15", "title": "Grid cells are in range", "statement": "Every box is rasterised only into cells whose coordinates lie inside the grid, and into every cell of the grid its extent meets.", "quantifier": "all non-empty lists of boxes", "why_tests_cant": "depends on a division and a floor for every box in every list", "anchors": ["ball2d/SpatialGridDetector.cpp: computeCellIndex, rasterizeAABBs, initializeSpatialGrid"]}
{"id": "C16", "title": "Reported impact times are real impacts", "statement": "When continuous collision detection between two moving balls reports a collision at time t, t lies in [0,1] and the balls, moved linearly to t, touch or overlap.", "quantifier": "all start and end positions and positive radii", "why_tests_cant": "a claim over a continuum of inputs, with degenerate branches (no relative motion, grazing)", "anchors": ["scisim/CollisionDetection/CollisionDetectionUtilities.cpp: ballBallCCDCollisionHappens, firstRootOfQuadratic, secondRootOfQuadratic, computeCCDQuadraticCoeffs"]}
{"id": "C17", "title": "No impact is missed", "statement": "If two balls moving linearly touch or overlap at some time of the step while approaching, continuous collision detection reports a collision, and the reported time is the first time of contact when they start apart.", "quantifier": "all start and end positions and positive radii, all times in the step", "why_tests_cant": "quantifies over a continuum of inputs and of times", "anchors": ["scisim/CollisionDetection/CollisionDetectionUtilities.cpp: ballBallCCDCollisionHappens"]}
{"id": "C18", "title": "Ball contact list is complete and duplicate free", "statement": "Without portals, the contacts of a step contain exactly one ball-ball contact for every pair of balls whose linearly interpolated paths touch or overlap at some time of the step, and none for other pairs; each contact carries the pair's indices, radii and start-of-step normal.", "quantifier": "all ball configurations and displacements", "why_tests_cant": "composition of broad phase and narrow phase over all configurations", "anchors": ["ball2d/Ball2DSim.cpp: computeActiveSet, computeBallBallActiveSetSpatialGrid", "ball2d/SpatialGridDetector.cpp"]}
{"id": "C19", "title": "Static geometry contacts are exact", "statement": "A plane contact is generated, once, exactly for the balls whose end-of-step disc meets the plane's solid side, and a drum contact exactly for the balls, no larger than the drum, whose end-of-step disc meets the outside of the drum.", "quantifier": "all balls, planes and drums", "why_tests_cant": "continuum of inputs and arbitrary numbers of objects", "anchors": ["ball2d/Ball2DSim.cpp: computeBallPlaneActiveSetAllPairs, computeBallDrumActiveSetAllPairs", "ball2d/Constraints/BallStaticPlaneConstraint.cpp: isActive", "ball2d/Constraints/BallStaticDrumConstraint.cpp: isActive"]}
{"id": "C20", "title": "Portal teleportation is a rigid, invertible map", "statement": "Teleporting through a portal preserves distances between points, turns depth d behind one plane into height d in front of the other, and teleporting back returns the original point (for sliding portals: up to whole periods along the plane).", "quantifier": "all portals, plane orientations, offsets and points", "why_tests_cant": "continuum of inputs; the periodic wrap makes it piecewise", "anchors": ["ball2d/Portals/PlanarPortal.cpp: teleportPointThroughPlaneA, teleportPointThroughPlaneB, teleportPointInsidePortal", "rigidbody2d/PlanarPortal.cpp"]}
{"id": "C21", "title": "Sliding portals stay within their period", "statement": "For every time, the offset of a sliding (Lees-Edwards) portal lies within its bounds and is congruent to velocity times time modulo the period, and every teleported point's tangential coordinate lies within the bounds.", "quantifier": "all times, velocities and positive bounds", "why_tests_cant": "unbounded times; a floor computation", "anchors": ["ball2d/Portals/PlanarPortal.cpp: updateMovingPortals", "rigidbody2d/PlanarPortal.cpp: updateMovingPortals"]}
{"id": "C22", "title": "Periodic domains keep bodies inside", "statement": "With two facing portal planes a distance L apart, a body that starts a step between the planes and moves less than L across them is between the planes after boundary conditions are enforced, and its velocity is unchanged (or shifted by exactly the portal speed along the plane for a sliding portal).", "quantifier": "all portals with facing planes, all body states and displacements below L, all numbers of steps", "why_tests_cant": "an invariant over unbounded executions and all configurations", "anchors": ["ball2d/Ball2DSim.cpp: enforcePeriodicBoundaryConditions", "rigidbody2d/RigidBody2DSim.cpp: enforcePeriodicBoundaryConditions"]}
{"id": "C23", "title": "Verlet integration is time reversible and conserves momentum", "statement": "For position-dependent forces, one Verlet step followed by a step of the velocity-negated state returns to the start with velocity negated; the total momentum of free bodies changes by exactly the mean of the external forces times the step, so it is conserved when forces cancel.", "quantifier": "all force fields, states, masses, steps and numbers of steps", "why_tests_cant": "all real-valued inputs and unboundedly many steps", "anchors": ["ball2d/VerletMap.cpp: flow", "rigidbody2d/VerletMap.cpp: flow"]}
{"id": "C24", "title": "Exact energy behaviour under gravity", "statement": "Under uniform gravity and no contact, each Verlet step conserves kinetic plus potential energy exactly and follows the exact parabola; symplectic Euler changes the energy by exactly the same amount independent of the state.", "quantifier": "all states, masses, gravity vectors, steps and numbers of steps", "why_tests_cant": "unbounded number of steps and all real inputs", "anchors": ["ball2d/VerletMap.cpp", "ball2d/SymplecticEulerMap.cpp", "ball2d/Forces/Ball2DGravityForce.cpp: computePotential, computeForce"]}
{"id": "C25", "title": "Scripted (fixed) bodies ignore forces", "statement": "A body marked fixed keeps its velocity under every force in an unconstrained step.", "quantifier": "all states, forces and steps", "why_tests_cant": "all real-valued inputs, any number of bodies", "anchors": ["ball2d/VerletMap.cpp", "ball2d/SymplecticEulerMap.cpp", "rigidbody2d/VerletMap.cpp", "rigidbody3d/UnconstrainedMaps/SplitHamMap.cpp"]}
{"id": "C26", "title": "3D rotations stay rotations", "statement": "Every 3D integrator keeps each body's orientation matrix a rotation (orthonormal with determinant one) whatever the momentum, inertia and step size.", "quantifier": "all orientations, momenta, positive inertias, steps and numbers of steps", "why_tests_cant": "unboundedly many steps over a continuum", "anchors": ["rigidbody3d/UnconstrainedMaps/SplitHamMap.cpp: flow", "rigidbody3d/UnconstrainedMaps/DMVMap.cpp: solveDMV, flow", "rigidbody3d/UnconstrainedMaps/IntegrationTools.cpp: exponentialEuler", "rigidbody3d/UnconstrainedMaps/ExponentialEulerMap.cpp"]}
{"id": "C27", "title": "Free 3D rigid bodies conserve angular momentum", "statement": "In the absence of forces the split integrator conserves the world-space angular momentum vector of each body exactly, for every step size, and is time reversible.", "quantifier": "all orientations, momenta, positive inertias, steps and numbers of steps", "why_tests_cant": "unbounded number of steps and all real inputs", "anchors": ["rigidbody3d/UnconstrainedMaps/SplitHamMap.cpp: flow", "rigidbody3d/UnconstrainedMaps/DMVMap.cpp"]}
{"id": "C28", "title": "Forces are conservative and obey Newton's third law", "statement": "The penalty force between two balls is equal and opposite, central (no net torque), repulsive, zero when the balls do not overlap, and is minus the gradient of its potential; gravity is minus the gradient of its potential.", "quantifier": "all ball configurations and stiffnesses", "why_tests_cant": "a continuum of configurations and any number of balls", "anchors": ["ball2d/Forces/PenaltyForce.cpp: computePotential, computeForce", "ball2d/Forces/Ball2DGravityForce.cpp"]}
{"id": "C29", "title": "Single impacts obey Newton's law with restitution", "statement": "Resolving one impact with coefficient c makes the post-impact normal relative velocity exactly -c times the pre-impact one, changes the velocities by a multiple of the normal only, conserves linear and angular momentum of two free bodies, and never increases kinetic energy for c in [0,1].", "quantifier": "all bodies, masses, velocities, normals and c", "why_tests_cant": "a continuum of inputs", "anchors": ["ball2d/Constraints/BallBallConstraint.cpp: resolveImpact, evalgradg, evalNdotV", "ball2d/Constraints/BallStaticDrumConstraint.cpp: resolveImpact", "rigidbody2d/CircleCircleConstraint.cpp"]}
{"id": "C30", "title": "Gauss-Seidel impacts are physically admissible at every iteration", "statement": "The Gauss-Seidel impact operator returns non-negative impulses and the velocity obtained by applying exactly those impulses; kinetic energy never increases for restitution in [0,1]; total momentum of free bodies is conserved; and when it stops by itself no contact approaches faster than the tolerance.", "quantifier": "all contact sets, masses, velocities, restitution in [0,1], and any number of sweeps", "why_tests_cant": "unbounded number of sweeps over unbounded contact sets", "anchors": ["scisim/ConstrainedMaps/ImpactMaps/GaussSeidelOperator.cpp: flow"]}
{"id": "C31", "title": "Simultaneous (LCP) impacts are feasible and dissipative", "statement": "If the linear complementarity solver returns a solution, the post-impact velocities are non-penetrating at every contact, impulses are non-negative and act only where contacts close at the restitution target, momentum is conserved and, for a restitution shared by all contacts in [0,1], kinetic energy never increases and is conserved at restitution 1.", "quantifier": "all contact sets, mass matrices, velocities and restitution values", "why_tests_cant": "arbitrary numbers of simultaneous contacts and a continuum of states", "anchors": ["scisim/ConstrainedMaps/ImpactMaps/ImpactOperatorUtilities.cpp: computeN, evalKinematicRelVelGivenBases", "scisim/ConstrainedMaps/ImpactMaps/LCPOperatorQL.cpp: flow", "scisim/ConstrainedMaps/ImpactMaps/LCPOperatorAPGD.cpp: flow", "scisim/ConstrainedMaps/ImpactMaps/ImpactMap.cpp: flow"]}
{"id": "C32", "title": "Generalized reflection is admissible", "statement": "The generalized-reflections operator returns non-negative impulses consistent with the velocity change, ends with no approaching contact (within tolerance), conserves momentum, and conserves kinetic energy when its inner solves are exact reflections.", "quantifier": "all contact sets, states and numbers of rounds", "why_tests_cant": "unbounded rounds of a loop whose working set changes every round", "anchors": ["scisim/ConstrainedMaps/ImpactMaps/GROperator.cpp: flow"]}
{"id": "C33", "title": "Restitution blending is admissible", "statement": "The generalized restitution operator returns the restitution-weighted combination of a fully inelastic and a fully elastic response; if both are feasible, momentum conserving and non-energy-increasing, so is the result for every restitution in [0,1].", "quantifier": "all contact sets, states and restitution values in [0,1]", "why_tests_cant": "a convexity statement over a continuum", "anchors": ["scisim/ConstrainedMaps/ImpactMaps/GRROperator.cpp: flow"]}
{"id": "C34", "title": "A step without contacts equals the free step", "statement": "When the predicted motion activates no contact, the contact-aware step returns exactly the state of the unconstrained integrator, and the impulse cache is empty afterwards.", "quantifier": "all systems, integrators, impact and friction maps", "why_tests_cant": "quantifies over all systems and integrators", "anchors": ["scisim/ConstrainedMaps/ImpactMaps/ImpactMap.cpp: flow", "scisim/ConstrainedMaps/ImpactFrictionMap.cpp", "scisim/ConstrainedMaps/GeometricImpactFrictionMap.cpp: flow", "scisim/ConstrainedMaps/StabilizedImpactFrictionMap.cpp: flow", "scisim/ConstrainedMaps/SymplecticEulerImpactFrictionMap.cpp: flow"]}
{"id": "C35", "title": "The projected-gradient solver reports honestly", "statement": "The accelerated projected gradient solver returns the best feasible iterate it visited; it reports success exactly when the reported residual of the returned iterate is within tolerance; and the returned iterate is never negative.", "quantifier": "all symmetric matrices, vectors, start points, tolerances and iteration limits of at least one", "why_tests_cant": "loop invariants over unboundedly many iterations with momentum restarts", "anchors": ["scisim/Math/QPSolvers/ProjectionSolvers.h: APGD::solve"]}
{"id": "C36", "title": "The projected-gradient solver terminates", "statement": "For every input the solver stops after at most the permitted number of iterations, its inner step-size search included.", "quantifier": "all positive semidefinite matrices, vectors and start points", "why_tests_cant": "termination for all inputs", "anchors": ["scisim/Math/QPSolvers/ProjectionSolvers.h: APGD::solve"]}
{"id": "C37", "title": "Residual zero means solved", "statement": "The Fischer-Burmeister and min-map residuals of a candidate impulse are zero exactly when it solves the complementarity problem, and the reported error is the largest violation over contacts.", "quantifier": "all vectors of any size", "why_tests_cant": "an equivalence over a continuum", "anchors": ["scisim/ConstrainedMaps/ImpactMaps/FischerBurmeisterImpact.cpp", "scisim/ConstrainedMaps/ImpactMaps/MinMapImpact.cpp", "scisim/ConstrainedMaps/FrictionMaps/FischerBurmeisterSmooth.cpp", "scisim/ConstrainedMaps/FrictionMaps/FischerBurmeisterBoundConstrained.cpp"]}
{"id": "C38", "title": "Staggered projections report and select honestly", "statement": "The staggered friction solver performs at most the permitted number of iterations, returns impulses and a velocity that are consistent with each other, and reports success exactly when its final error is within tolerance; the friction impulses used are those of the best iterate visited.", "quantifier": "all contact problems, inner solvers and iteration limits", "why_tests_cant": "loop invariants over all inner solver behaviours", "anchors": ["scisim/ConstrainedMaps/StaggeredProjections.cpp: solve"]}
{"id": "C39", "title": "The linearised friction disk is inside the Coulomb disk", "statement": "Every friction impulse admitted by the linear friction constraints has Euclidean magnitude at most the friction coefficient times the normal impulse, for any number of sampled directions.", "quantifier": "all numbers of contacts, sampled directions, coefficients and impulses", "why_tests_cant": "any number of samples per contact and a continuum of impulses", "anchors": ["scisim/ConstrainedMaps/FrictionMaps/FrictionOperatorUtilities.cpp: formLinearFrictionDiskConstraint", "scisim/ConstrainedMaps/FrictionMaps/LinearMDPOperatorQL.cpp"]}
{"id": "C40", "title": "Contact frames are orthonormal", "statement": "The basis attached to a contact is orthonormal and right handed with the contact normal first, for every normal and every relative velocity.", "quantifier": "all unit normals and velocities", "why_tests_cant": "a continuum with degenerate branches", "anchors": ["rigidbody3d/Constraints/FrictionUtilities.cpp", "ball2d/Constraints/BallBallConstraint.cpp: computeBasis", "rigidbody2d/CircleCircleConstraint.cpp: computeBasis"]}
{"id": "C41", "title": "Deleting bodies keeps the others", "statement": "Removing a set of bodies leaves exactly the other bodies, in their original order, each with its own configuration, velocity, mass, fixed flag and geometry.", "quantifier": "all numbers of bodies and all sets of indices in range", "why_tests_cant": "in-place compaction over several parallel arrays for all subsets", "anchors": ["rigidbody2d/RigidBody2DState.cpp: removeBodies", "rigidbody2d/PythonScripting.cpp"]}
{"id": "C42", "title": "Deleting geometry keeps references valid", "statement": "Removing geometry instances leaves every body whose geometry was not removed referring to the same geometry as before.", "quantifier": "all numbers of geometries, bodies and all sets of removed indices", "why_tests_cant": "index remapping over all subsets", "anchors": ["rigidbody2d/RigidBody2DState.cpp: removeGeometry"]}
{"id": "C43", "title": "Adding a body appends it", "statement": "Adding a body or ball leaves all others unchanged and appends one with the requested state and the mass and inertia of its geometry; mass and inverse mass stay inverse to each other.", "quantifier": "all states and all sequences of additions", "why_tests_cant": "block-diagonal matrices of any size, all histories", "anchors": ["rigidbody2d/RigidBody2DState.cpp: addBody", "ball2d/Ball2DState.cpp: pushBallBack"]}
{"id": "C44", "title": "Bounding boxes contain the body", "statement": "The axis-aligned box computed for a circle, rotated 2D box, sphere or rotated 3D box contains every point of the body and touches it on every side; the collision box of a moving circle contains it throughout the step.", "quantifier": "all poses, sizes and times in the step", "why_tests_cant": "a continuum of poses and body points", "anchors": ["rigidbody2d/CircleGeometry.cpp: computeAABB, computeCollisionAABB", "rigidbody2d/BoxGeometry.cpp: computeAABB", "rigidbody3d/Geometry/RigidBodyBox.cpp: computeAABB", "rigidbody3d/Geometry/RigidBodySphere.cpp: computeAABB"]}
{"id": "C45", "title": "Circle-box test is exact", "statement": "The circle-box test reports contact exactly when the disc and the rotated box share a point; the reported normal is a unit vector.", "quantifier": "all poses and sizes", "why_tests_cant": "a continuum with region case analysis", "anchors": ["rigidbody2d/CircleBoxTools.cpp: isActive"]}
{"id": "C46", "title": "Box-box test is exact", "statement": "The 2D box-box test reports contact only when the boxes share a point, and reports none only when a line separates them.", "quantifier": "all poses and sizes of two boxes", "why_tests_cant": "a continuum of poses (separating-axis completeness)", "anchors": ["rigidbody2d/BoxBoxTools.cpp: isActive"]}
{"id": "C47", "title": "Mass properties are physical", "statement": "Masses and moments of inertia computed from geometry and density are the exact integrals for circles, boxes and spheres, positive for positive sizes, and for closed triangle meshes the volume does not depend on where the mesh is placed.", "quantifier": "all sizes, densities, and closed meshes", "why_tests_cant": "a continuum, arbitrary meshes", "anchors": ["rigidbody2d/CircleGeometry.cpp: computeMassAndInertia", "rigidbody2d/BoxGeometry.cpp: computeMassAndInertia", "rigidbody3d/Geometry/RigidBodyBox.cpp", "rigidbody3d/Geometry/RigidBodySphere.cpp", "rigidbody3d/Geometry/MomentTools.cpp: computeMoments"]}
{"id": "C48", "title": "Portal definitions consume exactly the named planes", "statement": "Loading a scene turns exactly the planes named by portals into portals and leaves all other planes, in their original order; a plane is used by at most one portal.", "quantifier": "all numbers of planes and portals", "why_tests_cant": "erasing by index while indices shift, for all index sets", "anchors": ["ball2dutils/Ball2DSceneParser.cpp: loadStaticPlanes, loadPlanarPortals, loadLeesEdwardsPortals", "rigidbody2dutils/RigidBody2DSceneParser.cpp"]}
{"id": "C49", "title": "Column extraction is faithful", "statement": "Extracting a set of columns from a sparse matrix yields the matrix whose j-th column is the j-th requested column.", "quantifier": "all sparse matrices and all column lists", "why_tests_cant": "compressed storage of any size", "anchors": ["scisim/Math/MathUtilities.cpp: extractColumns", "scisim/Math/QPSolvers/SparseMatrixVectorOperators.cpp"]}
{"id": "C50", "title": "Mass matrices are consistent", "statement": "The mass matrix and the inverse mass matrix built for a state are inverse to each other on all free degrees of freedom, and kinetic energy and momentum reported by the simulation are those of the bodies.", "quantifier": "all masses, inertias and numbers of bodies", "why_tests_cant": "any number of bodies", "anchors": ["rigidbody2d/RigidBody2DState.cpp: generateM, generateMinv", "ball2d/Ball2DState.cpp", "ball2d/Ball2DSim.cpp: computeKineticEnergy, computeMomentum, computeAngularMomentum"]}
{"id": "C51", "title": "Teleported contacts are unique and not duplicates", "statement": "With portals, each pair of balls contributes at most one teleported contact, a pair already in contact without teleportation is not reported twice because both balls were teleported, and each teleported contact records the pair with the smaller index first together with matching portal and plane data.", "quantifier": "all ball configurations and portals", "why_tests_cant": "composition over all configurations and set insertions", "anchors": ["ball2d/Ball2DSim.cpp: computeBallBallActiveSetSpatialGridWithPortals", "ball2d/Portals/PlanarPortal.cpp: TeleportedCollision"]}
{"id": "C52", "title": "Warm starting returns last step's impulses", "statement": "With impulse caching enabled, every contact that persists from one step to the next starts from the impulse it had at the end of the previous step, and new contacts start from zero.", "quantifier": "all sequences of contact sets and impulses", "why_tests_cant": "all histories of steps", "anchors": ["scisim/ConstrainedMaps/GeometricImpactFrictionMap.cpp: initializeImpulses, cacheImpulses", "scisim/ConstrainedMaps/SymplecticEulerImpactFrictionMap.cpp", "scisim/ConstrainedMaps/ImpactMaps/ImpactMap.cpp"]}
{"id": "C53", "title": "Identity and orthonormality checks are sound", "statement": "The library's identity check accepts a matrix only if every entry is within tolerance of the identity matrix, its symmetry check only if the matrix is symmetric within tolerance, and its frame checks only right-handed orthonormal frames within tolerance.", "quantifier": "all matrices, vectors and tolerances", "why_tests_cant": "sparse storage omits zeros; all shapes", "anchors": ["scisim/Math/MathUtilities.cpp: isIdentity, isSymmetric, isSquare, isRightHandedOrthoNormal"]}
{"id": "C55", "title": "A planar rigid-body contact measures and acts at its contact point", "statement": "For every contact that the planar rigid-body simulation finds, the relative velocity it reports is the velocity of the first body's material at the contact point minus that of what it touches (the other body, the scripted body or the moving plane; through a portal, the image of the other body), the normal velocity is its component along the contact normal, and the impulse with coordinates alpha, beta pushes the first body with alpha n + beta t at the contact point and the second one with the opposite; the power of the impulse is its product with the relative velocity of the simulated bodies.", "quantifier": "all scenes of circles, boxes, planes and portals, all configurations, velocities and impulses, all contacts found", "why_tests_cant": "eight contact classes implement this by separate formulas; a sign or arm error shows only for particular poses and velocities", "anchors": ["rigidbody2d/BodyBodyConstraint.cpp", "rigidbody2d/CircleCircleConstraint.cpp", "rigidbody2d/KinematicObjectCircleConstraint.cpp", "rigidbody2d/StaticPlaneCircleConstraint.cpp", "rigidbody2d/StaticPlaneBodyConstraint.cpp", "rigidbody2d/TeleportedCircleCircleConstraint.cpp", "rigidbody2d/KinematicKickCircleCircleConstraint.cpp", "rigidbody2d/RigidBody2DSim.cpp: computeActiveSet"]}
{"id": "C56", "title": "Planar contacts conserve the momenta they say they conserve", "statement": "A contact that reports that it conserves linear momentum, angular momentum under impact, or angular momentum under impact and friction, does, whatever its impulse is; so a step in which all contacts say so conserves it. A contact with a plane or a scripted body changes the total linear momentum by its impulse, and a contact through a portal changes the angular momentum by the torque of the impulse over the displacement of the images.", "quantifier": "all scenes, configurations, contact lists and impulses", "why_tests_cant": "sums over all bodies and all impulses", "anchors": ["rigidbody2d/*Constraint.cpp: conservesTranslationalMomentum, conservesAngularMomentumUnderImpact, conservesAngularMomentumUnderImpactAndFriction"]}
{"id": "C57", "title": "The planar rigid-body contact list is exact", "statement": "Two bodies are in contact exactly if they are not both scripted and collide: two circles on their paths during the step, other bodies at the end of the step; a pair shares at most two contacts if both are boxes and one otherwise. A body is in contact with a plane exactly if it is not scripted and reaches the solid side; a box has one contact for each corner there. Normals are unit vectors that point from the second body to the first. With portals, two bodies also have one contact through a portal exactly if they are not both scripted and images of them, at least one of which is seen through a portal, have a common point at the end of the step, where two images that are both seen through portals do not count if the bodies themselves meet; the list has these pairs once each and in increasing order.", "quantifier": "all scenes of circles, boxes, planes and portals in all poses, with the boxes spread over at most 65536 average sizes", "why_tests_cant": "all poses; grid, dispatch by type and order of the indices interact", "anchors": ["rigidbody2d/RigidBody2DSim.cpp: dispatchNarrowPhaseCollision, boxBoxNarrowPhaseCollision, boxCircleNarrowPhaseCollision, computeBodyPlaneActiveSetAllPairs, computeBodyBodyActiveSetSpatialGrid, computeBodyBodyActiveSetSpatialGridWithPortals, dispatchTeleportedNarrowPhaseCollision, computeActiveSet", "rigidbody2d/PlanarPortal.cpp"]}
{"id": "C58", "title": "Portals in space move bodies rigidly and keep them in the box", "statement": "Going through a portal keeps distances and can be undone by going back; a body that leaves through one plane at some depth comes in through the other at the same height; orientation and velocity do not change and bodies do not affect each other. With axis-aligned facing planes and the right multipliers the map is the translation from one plane to the other, so after any number of steps, in which bodies move less than the size of the box, every body is inside the periodic box, having been moved in each direction by the width of the box or not at all in each step.", "quantifier": "all portals with unit normals, all bodies, all sequences of displacements", "why_tests_cant": "unbounded number of steps and all positions; the tangents come from a rotation computed from the normals", "anchors": ["rigidbody3d/Portals/PlanarPortal.cpp: teleportPoint, teleportPointInsidePortal, pointInsidePortal, aabbTouchesPortal", "rigidbody3d/StaticGeometry/StaticPlane.cpp: t0, t1, distanceToPoint", "rigidbody3d/RigidBody3DSim.cpp: enforcePeriodicBoundaryConditions", "rigidbody3dutils/RigidBody3DSceneParser.cpp"]}
{"id": "C59", "title": "A rigid-body contact in space measures and acts at its contact point", "statement": "For every contact that the 3D rigid-body simulation finds, the relative velocity it reports is the velocity of the first body's material at the contact point minus that of what it touches (the other body, the scripted body, the moving plane or the moving cylinder), the normal velocity is its component along the contact normal, the impulse with given coordinates in the contact frame acts at the contact point on the first body and with the opposite sign on the second, its power is its product with the relative velocity of the simulated bodies, and the columns handed to the solvers are the generalized impulses of unit impulses along the normal and the tangent samples, with as many entries as reserved.", "quantifier": "all scenes of spheres, boxes, staples, meshes, planes, cylinders and portals, all configurations, velocities and impulses, all contacts found", "why_tests_cant": "ten contact classes implement this by separate formulas; a sign or arm error shows only for particular poses and velocities", "anchors": ["rigidbody3d/Constraints/*Constraint.cpp: computeRelativeVelocity, evalH, evalgradg, computeGeneralizedFrictionDisk, evalNdotV, frictionStencilSize", "rigidbody3d/RigidBody3DSim.cpp: computeActiveSet"]}
{"id": "C60", "title": "Contacts in space conserve the momenta they say they conserve", "statement": "A contact that reports that it conserves linear momentum, angular momentum under impact, or angular momentum under impact and friction, does, whatever its impulse is; so a step in which all contacts say so conserves it. A contact with a plane, a cylinder or a scripted body changes the total linear momentum by its impulse, and a contact through a portal changes the angular momentum by the torque of the impulse over the displacement of the images.", "quantifier": "all scenes, configurations, contact lists and impulses", "why_tests_cant": "sums over all bodies and all impulses", "anchors": ["rigidbody3d/Constraints/*Constraint.cpp: conservesTranslationalMomentum, conservesAngularMomentumUnderImpact, conservesAngularMomentumUnderImpactAndFriction"]}
{"id": "C61", "title": "The rigid-body contact list in space is exact", "statement": "Two bodies are in contact exactly if they are not both scripted and collide at the end of the step: two spheres have a point in common (then there is one contact), a surface sample of one mesh is inside the other, or two boxes overlap. The normal of a contact of two boxes is a direction along which moving the first box by their overlap separates them. A body is in contact with a plane exactly if it is not scripted and reaches the solid side, a box once for each corner and a mesh once for each vertex of its hull there; it is in contact with a cylinder exactly if it is not scripted and reaches the wall. With portals, two spheres also have one contact through a portal exactly if they are not both scripted and images of them, at least one of which is seen through a portal, have a common point at the end of the step, where two images that are both seen through portals do not count if the spheres themselves meet; the list has these pairs once each and in increasing order. A step fails exactly on the combinations that are not supported.", "quantifier": "all scenes of spheres, boxes, staples and meshes in all poses, with planes, cylinders and portals, with the boxes spread over at most 1625 average sizes", "why_tests_cant": "all poses; grid, dispatch by type and order of the indices interact", "anchors": ["rigidbody3d/RigidBody3DSim.cpp: dispatchNarrowPhaseCollision, computeActiveSetBodyBodySpatialGrid, computeBodyPlaneActiveSetAllPairs, computeBodyCylinderActiveSetAllPairs, computeActiveSet", "rigidbody3d/Constraints/MeshMeshUtilities.cpp", "rigidbody3d/Constraints/StaticPlaneBoxConstraint.cpp: isActive", "rigidbody3d/Constraints/StaticCylinderSphereConstraint.cpp: isActive"]}
{"id": "C62", "title": "The report of initial collisions counts and measures the overlaps", "statement": "The collision statistics give for each kind of contact the number of contacts, their total penetration depth and their total overlap volume, with an entry for exactly the kinds that occur. The count for two spheres (or two balls) is the number of pairs that have a point in common; the depth of such a pair is minus the least distance by which one has to be moved so that they do not overlap any more, likewise for a sphere and a plane or a cylinder and for a ball and a plane; the volume of two spheres is the volume of their intersection. Kinds for which no depth or volume is defined are reported as not a number.", "quantifier": "all scenes and configurations", "why_tests_cant": "all positions and radii; the lens formula has many cases, and the sums range over all pairs", "anchors": ["rigidbody3d/RigidBody3DSim.cpp: computeNumberOfCollisions", "ball2d/Ball2DSim.cpp: computeNumberOfCollisions", "rigidbody3d/Constraints/SphereSphereConstraint.cpp: computePenetrationDepth, computeOverlapVolume", "rigidbody3d/Constraints/StaticPlaneSphereConstraint.cpp: computePenetrationDepth", "ball2d/Constraints/BallBallConstraint.cpp: computePenetrationDepth"]}
{"id": "C63", "title": "The simulation stops when a body leaves the boundary", "statement": "With the boundary behaviour 'exit', a step of the 3D rigid-body simulation completes only if, after portals have been applied, every point of every sphere, box and mesh is inside the boundary box, and the program exits in every other case; so after any number of completed steps all of them are inside. With 'none' the boundary has no effect. Leaving through a periodic side does not count as leaving. A scene file can only set a boundary whose lower corner is below its upper corner.", "quantifier": "all scenes of spheres, boxes and meshes in all poses, all boundaries, portals, callbacks, forces and contacts, and any number of steps", "why_tests_cant": "all poses and unboundedly many steps; the test is made on bounding boxes", "anchors": ["rigidbody3d/RigidBody3DSim.cpp: runBoundaryExitTreatment, treatSimulationBoundary, flow", "rigidbody3dutils/RigidBody3DSceneParser.cpp: loadSimulationBoundary"]}
{"id": "C64", "title": "Snapshots of the 3D program restore the simulation", "statement": "A snapshot the 3D rigid-body program writes loads to exactly the simulation, solver configuration and output settings that were saved, consuming exactly the file; different simulations never give the same file; a scene that cannot be saved ends the program instead of leaving a file; resuming continues the run exactly; files of the other programs are refused.", "quantifier": "all 3D simulations (any numbers of boxes, spheres, staples and meshes with distance fields, planes, cylinders, portals, forces and cached impulses), all solver configurations and integrators, all git revisions", "why_tests_cant": "all states and sizes; a field left out or read in another order only shows for particular values", "anchors": ["rigidbody3d/RigidBody3DState.cpp: serialize, deserialize, deserializeGeometry, deserializeForces", "rigidbody3d/RigidBody3DSim.cpp: serialize, deserialize", "rigidbody3d/Geometry: serialize and stream constructors", "rigidbody3d/RigidBody3DUtilities.cpp: serialize, deserializeUnconstrainedMap", "rigidbody3dcli/rigidbody3d_cli.cpp: serializeSystem, deserializeSystem"]}
{"id": "C54", "title": "The So-bogus friction solver solves the contact problem of the whole system", "statement": "Handing the contacts to So-bogus, for a renumbered copy of the bodies in contact, solves the contact problem of the whole system: the call returns for every consistent input, leaves the contacts referring to the same bodies, leaves bodies without contacts alone, changes every body's momentum by exactly the sum of the impulses it reports for the body's contacts (opposite on the two bodies), reports as friction exactly their tangential parts, reports success only below the tolerance, and whenever the library's answer solves its problem for a contact law, the law holds at every contact of the system for the velocities and impulses returned, with restitution and moving obstacles accounted for.", "quantifier": "all three kinds of system, all numbers of bodies, contacts, bases, masses, velocities, friction coefficients, coefficients of restitution and warm starts, every behaviour of the library's iteration", "why_tests_cant": "index maps, block layouts and signs over all systems: a wrong stride or sign only shows with particular body numbers", "anchors": ["scisim/ConstrainedMaps/Sobogus.cpp: Sobogus::solve, buildLocalToGlobalMap, extractMass2D/2DRigidBody/3D, extractq*, extractv*, SobogusFrictionProblem::initialize*, solve*", "scisim/ConstrainedMaps/bogus/*SobogusInterface.cpp: fromPrimal, solve", "scisim/Constraints/Constraint.cpp: evalKinematicRelVelGivenBases, computeForcingTerm"]}
{"id": "C65", "title": "Calls from scripts do what they say", "statement": "Whatever a Python callback does with the functions offered to it (reading and writing the arrays of positions, velocities and coefficients, inserting and deleting bodies, geometry and planes, moving obstacles, changing gravity, asking for contacts), each call either has exactly the documented effect on the scene and returns exactly the value asked for, or is rejected; the arrays of the simulation keep fitting together, and the number of coefficients stays the number of contacts.", "quantifier": "all scripts (sequences of calls of any length whose arguments may depend on all earlier replies), all scenes, all arguments, in all callbacks of the three programs", "why_tests_cant": "scripts are programs: there are infinitely many of them, and index, lifetime and numbering errors need particular sequences of calls", "anchors": ["ball2d/PythonScripting.cpp: insertBall, setStaticPlanePosition, setStaticPlaneVelocity, deleteStaticPlane, configuration, velocity, mu, cor, collisionType, collisionIndices", "rigidbody2d/PythonScripting.cpp", "rigidbody3d/PythonScripting.cpp"]}
{"id": "C66", "title": "Script callbacks come in order and with the right data", "statement": "In a run from loading a scene to its end the module's functions are called in this order: the start-of-simulation function once, then for each step in turn, numbered from one and without gaps, the start-of-step function, then (only if there are contacts) the friction and restitution coefficient functions, then the end-of-step function, each exactly once and with the step's number and time step, and the end-of-simulation function once at the end. The scene a function leaves is the scene the simulation continues with, and the coefficients it leaves are those the solver gets.", "quantifier": "all modules (any subset of the functions, any content), all scenes, all numbers of steps, all contact histories", "why_tests_cant": "order and numbering must hold for every number of steps and every pattern of contacts", "anchors": ["ball2d/Ball2DSim.cpp: flow", "scisim/ConstrainedMaps/ImpactMaps/ImpactMap.cpp: flow", "scisim/ConstrainedMaps/*Map.cpp: flow", "ball2d/PythonScripting.cpp: startOfSimCallback, endOfSimCallback, startOfStepCallback, endOfStepCallback, frictionCoefficientCallback, restitutionCoefficientCallback", "ball2dcli/ball2d_cli.cpp: loadXMLScene, stepSystem, executeSimLoop"]}
{"id": "C67", "title": "Points are tested exactly against the distance field of a mesh", "statement": "Asking a mesh whether a point collides with it answers yes exactly if the point is in the box of the mesh's distance grid and the field interpolated between the stored samples is not positive there, without reading anything but the samples; the normal is the gradient of that field, of unit length. A distance field that is affine, such as that of a flat face, is represented exactly.", "quantifier": "all grids (any dimensions, spacing, origin and samples) and all points", "why_tests_cant": "index arithmetic on the faces of the box and eight weights per point: errors only show at particular points of particular grids", "anchors": ["rigidbody3d/Geometry/RigidBodyTriangleMesh.cpp: detectCollision, v, constructor"]}
{"id": "C68", "title": "Configuration files contain the whole configuration", "statement": "Every configuration file a run writes contains the time step, the number of the step, the time, and all that is needed to draw the scene: position, velocity, mass, shape and fixed flag of every body, in the order of the bodies, and all static geometry. Following a body's entry in the table of shape types and numbers leads to its own shape. What was written under a name is read back exactly, and writing never changes what is in the file already.", "quantifier": "all states (any number of bodies, shapes, shared or unused, and static objects), all matrices of any size, all names", "why_tests_cant": "the numbering of shapes by type only goes wrong for particular orders of shapes; a missing member is invisible to whoever does not look for it", "anchors": ["scisim/HDF5File.h: write, read", "scisim/HDF5File.cpp: HDF5File::write, findOrCreateGroup", "rigidbody2d/StateOutput.cpp", "rigidbody3d/StateOutput.cpp", "ball2d/Ball2DSim.cpp: writeBinaryState", "rigidbody2d/RigidBody2DSim.cpp: writeBinaryState", "rigidbody3d/RigidBody3DSim.cpp: writeBinaryState", "ball2dcli/ball2d_cli.cpp: saveState", "rigidbody3dcli/rigidbody3d_cli.cpp: saveState"]}
{"id": "C69", "title": "Force files agree with what the contacts did", "statement": "When the forces of a step are saved, the file has one entry for each contact of that step, in the same order in all its tables: the two bodies (or the body and the static object), the point where they touch, the normal, and the force. Whoever applies the listed forces at the listed points to the listed bodies, with the opposite sign to the second, changes the momenta of all bodies exactly as the step did. With no contact, the file says so and has no tables. Saving succeeds for every set of contacts.", "quantifier": "all contact lists a step can produce, all impulses, with and without friction, for balls and rigid bodies in two and three dimensions", "why_tests_cant": "a column that is off by one or a tangent that is swapped is only seen by comparing the sum of all entries with the change of momentum, for every mixture of contact types", "anchors": ["scisim/ConstrainedMaps/ImpactFrictionMap.cpp: exportConstraintForcesToBinaryFile, getCollisionIndices", "scisim/ConstrainedMaps/ImpactMaps/ImpactSolution.cpp: setSolution, writeSolution", "ball2d/Ball2DSim.cpp: computeImpactBases, computeContactBases", "rigidbody2d/RigidBody2DSim.cpp: computeImpactBases, computeContactBases", "rigidbody3d/RigidBody3DSim.cpp: computeImpactBases, computeContactBases", "scisim/ConstrainedMaps/ImpactMaps/ImpactOperatorUtilities.cpp: computeN", "scisim/ConstrainedMaps/FrictionMaps/FrictionOperator.cpp: formGeneralizedSmoothFrictionBasis"]}
{"id": "C70", "title": "Scene files of the ball simulation mean what they say", "statement": "A scene file for the ball simulation is loaded as exactly the scene it describes: every ball with its position, velocity, mass, radius and whether it is fixed, in the order of the file; forces, drums, planes and portals; timestep, end time, integrator, solver and its parameters. A file that is not in the format - an element or attribute missing, a text that is not a number, a parameter out of its range, two solvers - is reported as an error and nothing is simulated. Line breaks have no meaning beyond white space.", "quantifier": "all scene files, all texts of attributes, all builds of the program (with and without the optional solvers)", "why_tests_cant": "the files users write are unlimited in number; a text that is silently read as another number, or an attribute that lands in the wrong field, is only excluded by relating every accepted file to the scene that results", "anchors": ["ball2dutils/Ball2DSceneParser.cpp: parseXMLSceneFile, loadSimulationState, loadBalls, loadStaticDrums, loadStaticPlanes, loadPlanarPortals, loadGravityForce, loadPenaltyForce, loadIntegrator, loadLCPSolver, loadImpactOperator, loadStaggeredProjectionsFrictionSolver, loadSobogusFrictionSolver, loadCameraSettings", "scisim/StringUtilities.h: extractFromString, readScalarList"]}
{"id": "C71", "title": "Scene files of the 2D rigid body simulation mean what they say", "statement": "A scene file for the simulation of two dimensional rigid bodies is loaded as exactly the scene it describes: shapes, bodies with position, angle, velocities, density, shape and whether they are fixed, in the order of the file, with the mass and moment of inertia of their shape; gravity, planes and portals; camera, timestep, end time, integrator, solver and its parameters. A file that is not in the format is reported as an error, and nothing is simulated.", "quantifier": "all scene files, all texts of attributes, all builds of the program (with and without the optional solvers)", "why_tests_cant": "the files users write are unlimited in number; a text that is silently read as another number, or an attribute that lands in the wrong field, is only excluded by relating every accepted file to the scene that results", "anchors": ["rigidbody2dutils/RigidBody2DSceneParser.cpp: parseXMLSceneFile, loadGeometry, loadBodies, loadStaticPlanes, loadPlanarPortals, loadGravityForce, loadIntegrator, loadCameraSettings, loadLCPSolver, loadImpactOperator, loadStaggeredProjectionsFrictionSolver, loadSobogusFrictionSolver", "scisim/StringUtilities.h: extractFromString, readScalarList"]}
{"id": "C72", "title": "Scene files of the 3D rigid body simulation mean what they say", "statement": "A scene file for the simulation of three dimensional rigid bodies is loaded as exactly the scene it describes: shapes, bodies with position, orientation, velocities, density, shape and whether they are fixed, in the order of the file, with the mass and moments of inertia of their shape; gravity, planes, cylinders, portals and their renderers, each renderer belonging to the plane it names; cameras, boundary, timestep, end time, integrator, solver and its parameters. A file that is not in the format is reported as an error, and nothing is simulated.", "quantifier": "all scene files, all texts of attributes, all builds of the program (with and without the optional solvers)", "why_tests_cant": "the files users write are unlimited in number; a text that is silently read as another number, an index off by one, or an attribute that lands in the wrong field is only excluded by relating every accepted file to the scene that results", "anchors": ["rigidbody3dutils/RigidBody3DSceneParser.cpp: parseXMLSceneFile, loadSimState, loadStaticPlanes, loadStaticCylinders, loadPlanarPortals, loadStaticPlaneRenderers, loadStaticCylinderRenderers, loadNearEarthGravityForce, loadUnconstrainedMap, loadSimulationBoundary, loadPerspectiveCameraSettings, loadOrthographicCameraSettings, loadGRRFrictionSolver", "scisim/StringUtilities.h: extractFromString, readScalarList"]}
{"id": "C73", "title": "Two boxes in space: contacts are found and mean what they say", "statement": "The test of two boxes in three dimensions reports contact points only when the boxes share a point, and reports at least one and at most eight when they overlap. The normal is a unit vector from the second box to the first; moving the first box along it by the overlap separates the boxes, and no motion shorter by more than five percent does. Each point is where the boxes touch: a point of one box that is at most the overlap away from the other along the normal, or half way between two crossing edges.", "quantifier": "all sizes, positions and orientations of two boxes", "why_tests_cant": "the fifteen axes, the two reference boxes, the clipping of polygons and the edge cases give far more combinations than tests visit; a wrong sign or a dropped axis shows only for some orientations", "anchors": ["rigidbody3d/Constraints/BoxBoxUtilities.cpp: isActive, boxBox, intersectRectQuad, lineClosestApproach, axisAlignedSeperatingTest, edgeEdgeSeparatingTest"]}
{"id": "C74", "title": "Closest points of segments, touching staples, a box against a ball", "statement": "The closest points reported for two segments lie on them and no two points of the segments are closer. Two staples are said to touch exactly if they have a point in common. A corner of a staple is listed for a half space exactly if the ball around it reaches the half space, and none is listed exactly if the staple does not reach it. A box and a ball are given no contact exactly if they have no point in common; otherwise one, at the point of the box closest to the centre of the ball, with the unit normal from the centre to it.", "quantifier": "all pairs of segments, staples, half spaces, boxes and balls in all poses", "why_tests_cant": "parallel, degenerate and clamped cases of two segments have to be combined with all poses; a wrong clamp gives a point that is only slightly too far", "anchors": ["rigidbody3d/Constraints/CollisionUtilities.cpp: closestPointSegmentSegment, computeBoxSphereActiveSet, computeClosestPointToBox", "rigidbody3d/Constraints/StapleStapleUtilities.cpp: isActive, computeConstraints, computeStapleHalfPlaneActiveSet"]}
{"id": "C75", "title": "What is handed to Ipopt and QL is the right problem, and their answers are used as the operators promise", "statement": "The impact and friction operators that use Ipopt give it a consistent description of their quadratic programs: values, gradients, Jacobians and Hessians belong to the same functions, no array is overrun, the bounds allow exactly the admissible impulses, and the start is the initial guess. The first linear solver that succeeds provides the answer; if none does the program ends. If the library solves what it was asked to solve, the impulses that are returned solve the complementarity problem of impact, or dissipate maximally, and the multipliers of friction are the speeds of slip. The same holds for the operators that use QL, whose arrays and work space have the sizes that QL asks for.", "quantifier": "all sparse symmetric matrices, linear terms, friction coefficients, normal impulses and initial guesses, all lists of linear solvers, all sequences of answers of the libraries", "why_tests_cant": "a wrong entry of a Hessian only slows down convergence in most problems; failures of the libraries can hardly be provoked", "anchors": ["scisim/ConstrainedMaps/IpoptUtilities.cpp: nzLowerTriangular, sparsityPatternLowerTriangular, valuesLowerTriangular, containsDuplicates, linearSolverSupported", "scisim/ConstrainedMaps/ImpactMaps/LCPOperatorIpopt.cpp: flow, solveQP, QPNLP", "scisim/ConstrainedMaps/FrictionMaps/SmoothMDPOperatorIpopt.cpp: flow, solveQP, SmoothMDPNLP", "scisim/ConstrainedMaps/ImpactMaps/LCPOperatorQL.cpp: flow", "scisim/ConstrainedMaps/FrictionMaps/LinearMDPOperatorQL.cpp: flow", "scisim/ConstrainedMaps/FrictionMaps/BoundConstrainedMDPOperatorQL.cpp: flow", "scisim/Math/QL/QLUtilities.cpp: QLReturnStatusToString"]}
{"id": "C76", "title": "The interactive programs compute what the command line programs compute", "statement": "Whatever a user does in one of the windows - single steps, simulating, resets, opening and reloading scenes, changing frame rates, exporting movies and images - the state of the simulation is the one that a command line program would reach from the scene opened last in the number of steps taken since it was opened or reset. The displayed changes of energy and momentum are the largest ones in those steps. A step past the end time, and nothing else, ends the program.", "quantifier": "all sequences of user events, all scenes opened in any order, all scripts, all three programs", "why_tests_cant": "the histories of clicks are unbounded; what is left over from an earlier scene or from before a reset shows only in rare sequences", "anchors": ["ball2dqt4/GLWidget.cpp: openScene, stepSystem, resetSystem", "ball2dqt4/ContentWidget.cpp", "rigidbody2dqt4/GLWidget.cpp: openScene, stepSystem, resetSystem", "rigidbody2dqt4/ContentWidget.cpp", "rigidbody3dqt4/GLWidget.cpp: openScene, stepSystem, resetSystem", "rigidbody3dqt4/ContentWidget.cpp", "scisim/ConstrainedMaps/*ImpactFrictionMap.cpp: resetCachedData"]}
{"id": "C77", "title": "A movie is a complete sequence of numbered frames at the chosen rate", "statement": "From the moment a movie is started, while the simulation runs, the images written are numbered from 0 without gaps or repetitions; their names sort in the order of time; the first is what was on the screen, and each later one shows the state, with the right time label, at the next multiple of the steps per frame. If the frame rate divides the rate of steps, frames are exactly 1/fps apart; otherwise every step is a frame.", "quantifier": "all programs, scenes, time steps, frame rates, starting points and numbers of steps, any mixture of single steps and simulating", "why_tests_cant": "whether a frame is dropped, doubled or shows the state of another step depends on the interplay of drawing at the frame rate, counting steps and numbering files over long runs", "anchors": ["ball2dqt4/GLWidget.cpp: stepSystem, setMovieDir, setMovieFPS, saveScreenshot", "ball2dqt4/ContentWidget.cpp: exportMovieToggled, exportMovie", "rigidbody2dqt4/GLWidget.cpp: stepSystem, setMovieDir, setMovieFPS", "rigidbody3dqt4/GLWidget.cpp: stepSystem, setMovieDir, setMovieFPS"]}
{"id": "C78", "title": "The windows of the interactive programs show what is in force", "statement": "In every session the boxes and the frame rate shown are the settings in force, the number of steps between frames belongs to the frame rate shown, and the picture on the screen is one of the current state with each body drawn with its own geometry and the current time and changes, unless pictures are drawn at the frame rate only. Drawing and stepping never read a colour or renderer that does not exist and never divide by zero.", "quantifier": "all sequences of user events, all scenes, all scripts, all three programs", "why_tests_cant": "settings come from scenes, from boxes and from signals that are sent only when a value changes, so that they can diverge in some order of events only; bodies are inserted and deleted by scripts at any time", "anchors": ["ball2dqt4/ContentWidget.cpp: openScene, renderAtFPSToggled, lockCameraToggled, movieFPSChanged", "ball2dqt4/GLWidget.cpp: openScene, paintGL, paintSystem, stepSystem", "rigidbody2dqt4/GLWidget.cpp: updateRenderers, generateRenderers, paintSystem", "rigidbody3dqt4/GLWidget.cpp"]}
{"id": "C79", "title": "The cameras of the planar programs show the plane faithfully and obey the mouse", "statement": "In every session of the interactive planar programs, the window shows the plane without distortion. The point of the plane under the mouse when the left button is pressed stays under the mouse during a drag, zooming keeps the middle of the window and multiplies the visible height, centring makes every body visible, a locked camera is not moved by mouse, wheel or centring, and a scene that is given the exported camera settings shows the same part of the plane.", "quantifier": "all sequences of mouse, wheel, window, menu and scene events, all window sizes, all scenes", "why_tests_cant": "the camera, the projection OpenGL was given and what was painted last are three separate pieces of state, updated by different handlers; that they agree after every order of events cannot be tested", "anchors": ["ball2dqt4/GLWidget.cpp: resizeGL, centerCamera, mousePressEvent, mouseMoveEvent, wheelEvent, exportCameraSettings, openScene", "ball2dqt4/OrthographicCameraController.cpp", "rigidbody2dqt4/GLWidget.cpp", "rigidbody2dqt4/OrthographicCameraController.cpp"]}
{"id": "C80", "title": "The cameras of the spatial program give true pictures and obey the mouse", "statement": "In every session of the interactive spatial program, the axes of the camera are at right angles and the picture is undistorted, not mirrored and centred on the line of sight; the projection is the one the selected camera asks for. Dragging with the orthographic camera keeps each point drawn under the mouse there. Turning and zooming with the perspective camera keep the point looked at in the middle, turning keeps its distance, and the picture is never upside down after it. Centring makes every body visible, a locked camera does not change the picture, and exported settings bring back the same picture.", "quantifier": "all sequences of mouse, wheel, window, menu and scene events, all window sizes, all scenes", "why_tests_cant": "two controllers share one projection and one viewport, and angles, distances and frames are kept separately; that they agree after every order of events, and that a scene fits into the picture for every size, cannot be tested", "anchors": ["rigidbody3dqt4/PerspectiveCameraController.cpp", "rigidbody3dqt4/OrthographicCameraController.cpp", "rigidbody3dqt4/GLWidget.cpp: resizeGL, initializeRenderingSettings, centerCamera, enablePerspectiveCamera, enableOrthographicXYCamera, mousePressEvent, mouseMoveEvent, wheelEvent, exportCameraSettings", "rigidbody3d/RigidBody3DSim.cpp: computeBoundingSphere"]}
{"id": "C81", "title": "A state saved as a scene file can be opened again", "statement": "Every state of three dimensional rigid bodies can be saved as a scene file, the program opens the file, and the bodies of the scene are those of the state: shapes, positions, velocities, orientations, angular velocities, masses, moments of inertia, and which bodies are scripted.", "quantifier": "all states, all shapes, all rotations, all ways of writing numbers", "why_tests_cant": "the writer and the reader are separate programs that have to agree on every element; a test opens a few files, and cannot settle that every rotation survives the way over an angle and an axis, or that no state gives a file that is refused", "anchors": ["rigidbody3dutils/XMLExporter.cpp: saveToXMLFile", "rigidbody3dutils/RigidBody3DSceneParser.cpp: parseXMLSceneFile, loadSimState", "rigidbody3dqt4/GLWidget.cpp: saveXML"]}
{"id": "C82", "title": "The pictures of the planar programs show the state", "statement": "In the window of the ball program and of the planar rigid body program every body is seen at its place, with its size, angle and colour, later bodies over earlier ones, and the ground elsewhere; planes and portals are drawn as the lines they are; and bodies that reach a portal have an outline where the portal takes them, and no others do.", "quantifier": "all states, all points of the plane", "why_tests_cant": "a test compares pictures of a few scenes; that the polygon drawn for a disc contains every point of it up to a known margin, that no primitive painted later hides a body, and that lines and outlines are exactly those of the scene is a statement about all states and all points", "anchors": ["ball2dqt4/GLWidget.cpp: paintSystem, paintInfiniteLine, paintPlanarPortal", "ball2dqt4/GLCircleRenderer2D.cpp: renderCircle, renderSolidCircle", "rigidbody2dqt4/GLWidget.cpp: paintSystem", "rigidbody2dqt4/GLCircleRenderer2D.cpp", "rigidbody2dqt4/BoxGeometryRenderer.cpp", "rigidbody2dqt4/CircleGeometryRenderer.cpp"]}
{"id": "C83", "title": "The picture of the spatial program shows the state", "statement": "In the scene that the window of the spatial rigid body program draws, every body is at its place, turned as it is, with its shape, size and colour, and there is no surface that is not part of a body; planes and portals are drawn as windows in them, cylinders as cages of rings and lines on them, and there are no other lines; and drawing ends without a fault.", "quantifier": "all states in which indices refer to something, all points in space", "why_tests_cant": "a test compares pictures of a few scenes; that the triangles made by repeated subdivision stay close to the sphere and leave no gap, that the number of vertices always fills the memory asked for, and that lines are exactly those of the scene is a statement about all states and all points", "anchors": ["rigidbody3dqt4/GLWidget.cpp: paintSystem, paintBody, paintBox, paintSphere, paintTriangleMesh", "rigidbody3dqt4/Rendering/OpenGL3DSphereRenderer.cpp", "rigidbody3dqt4/Rendering/StapleRenderer.cpp", "rigidbody3dqt4/Rendering/StaticPlaneRenderer.cpp", "rigidbody3dqt4/Rendering/StaticCylinderRenderer.cpp", "rigidbody3dqt4/Rendering/PlanarPortalRenderer.cpp"]}
{"id": "C84", "title": "The post-processing tools print what was simulated", "statement": "The tools that read the files of the spatial program print, of a saved configuration, exactly the bodies that have a mesh, in order, each with its position, rotation, velocities, mass, moments of inertia and the name of its mesh, and, of a file of contact forces, exactly the contacts of that step, each with its force, the bodies it is between, its normal and its point.", "quantifier": "all states with any number of bodies and shapes in any order, all lists of contacts", "why_tests_cant": "a test reads a file or two; that rows and columns, offsets into the vectors and the numbering of shapes by type are understood alike by writer and reader has to hold for every number and mixture of bodies, and for steps without contacts", "anchors": ["post_processing/rb3d_processing.py: DiscreteState, meshBodies, CollisionState, collisions", "post_processing/print_meshes.py", "post_processing/print_collisions.py", "scisim/ConstrainedMaps/ImpactFrictionMap.cpp: exportConstraintForcesToBinaryFile", "scisim/ConstrainedMaps/ImpactMaps/ImpactSolution.cpp: writeSolution", "rigidbody3d/RigidBody3DSim.cpp: writeBinaryState"]}
{"id": "C85", "title": "Python objects are kept alive while needed and given back", "statement": "While a scene with a script is in use its functions stay alive, whatever the script does with them; every reference that a program has been given is given back exactly once, when its scene is replaced, a callback has returned or the program ends; and nothing is touched after the interpreter has shut down.", "quantifier": "all histories of scenes opened and callbacks made, with any results of the interpreter, up to the end of the program by return or by std::exit", "why_tests_cant": "a reference lost or given back twice shows only as memory that grows or as a rare crash; that counts balance has to be argued over all histories, and the order of destruction at the end of a program is not seen by unit tests", "anchors": ["scisim/PythonObject.cpp", "scisim/PythonTools.cpp: loadModule, loadFunction", "ball2d/PythonScripting.cpp, rigidbody2d/PythonScripting.cpp, rigidbody3d/PythonScripting.cpp: constructors, swap, callbacks", "ball2dcli/ball2d_cli.cpp, rigidbody2dcli/rigidbody2d_cli.cpp, rigidbody3dcli/rigidbody3d_cli.cpp: g_scripting, exitCleanup", "ball2dqt4/ball2d_qt4.cpp, rigidbody2dqt4/rigidbody2d_qt4.cpp, rigidbody3dqt4/rigidbody3d_qt4.cpp: main"]}
{"id": "C86", "title": "A run starts as the command line says", "statement": "Options may be given in any order, before or after the scene, by letter or by name, with the argument apart or joined; the last one of a kind counts. Each option that is given has the effect that the help describes: end time, directory, impulses, frequency of saving, snapshots. Help starts nothing. Unknown options, missing arguments, arguments that are not of the kind required, impulses without a directory, no scene or several, and frequencies that do not fit the time step are refused.", "quantifier": "all command lines, all scenes, programs with and without HDF5", "why_tests_cant": "there are infinitely many command lines; order, repetition and combinations of options and the texts of numbers cannot be enumerated", "anchors": ["ball2dcli/ball2d_cli.cpp, rigidbody2dcli/rigidbody2d_cli.cpp, rigidbody3dcli/rigidbody3d_cli.cpp: parseCommandLineOptions, printUsage, main", "scisim/StringUtilities.h: extractFromString", "scisim/Math/MathUtilities.cpp: computeNumDigits"]}
{"id": "C87", "title": "Times are shown truly", "statement": "The time that a program prints or draws for a step is the time of that step: exactly, with as many decimals as the time step was written with, if it was written as a decimal number; else the nearest one with six decimals. Shown times never decrease, and different steps show different times.", "quantifier": "all texts of time steps, all numbers of steps", "why_tests_cant": "exactness for all numbers of steps is arithmetic about decimal texts of any length", "anchors": ["ball2dcli/ball2d_cli.cpp, rigidbody2dcli/rigidbody2d_cli.cpp, rigidbody3dcli/rigidbody3d_cli.cpp: computeTimestepDisplayPrecision, generateSimulationTimeString", "ball2dqt4/GLWidget.cpp, rigidbody2dqt4/GLWidget.cpp, rigidbody3dqt4/GLWidget.cpp: computeTimestepDisplayPrecision, generateTimeString", "scisim/StringUtilities.cpp: computeNumCharactersToRight"]}
{"id": "C88", "title": "A script is looked for beside its scene", "statement": "The script of a scene is looked for in the directory that the file of the scene is in, wherever that is and whatever its name.", "quantifier": "all names of files", "why_tests_cant": "names of directories are any texts; those that break the command that is composed from them are not thought of in tests", "anchors": ["ball2dcli/ball2d_cli.cpp, rigidbody2dcli/rigidbody2d_cli.cpp, rigidbody3dcli/rigidbody3d_cli.cpp: xmlFilePath, loadXMLScene", "ball2dqt4/GLWidget.cpp, rigidbody2dqt4/GLWidget.cpp: xmlFilePath", "rigidbody3dqt4/GLWidget.cpp: openScene", "scisim/PythonTools.cpp: loadModule, pythonCommand", "scisim/StringUtilities.cpp: splitAtLastCharacterOccurence"]}
{"id": "C89", "title": "What is taken from the HDF5 library is given back", "statement": "However the use of an HDF5 file ends, with a result or with an exception at any call, every identifier that the library has handed out for it is given back exactly once; the files open in the library are at any time exactly those of the HDF5File objects that exist, and none is left when they are gone. A file that is not open can be neither written nor read.", "quantifier": "all histories of constructions, openings, moves, assignments, uses and destructions of HDF5File objects, all sequences of failing calls, runs with any number of files", "why_tests_cant": "which call fails is not under the control of a test, and leaks show only after very many files", "anchors": ["scisim/HDF5File.h: HDFID, write, read, getNativeType, getDimensions", "scisim/HDF5File.cpp: HDF5File, open, is_open, findOrCreateGroup, findGroup, write", "rigidbody2d/StateOutput.cpp, rigidbody3d/StateOutput.cpp: writeGeometryIndices, writeGeometry, writeStaticPlanes, writeStaticCylinders, writePlanarPortals", "ball2dcli/ball2d_cli.cpp, rigidbody2dcli/rigidbody2d_cli.cpp, rigidbody3dcli/rigidbody3d_cli.cpp: saveState, stepSystem"]}
{"id": "C90", "title": "Failures while files are written are reported", "statement": "A command line program that saves states and forces ends with a status of success only if all data have been written, and with a status of failure otherwise.", "quantifier": "all sequences of failing calls of the HDF5 library, all runs with any number of files", "why_tests_cant": "a disk can be full at any call; tests do not reach them all", "anchors": ["ball2dcli/ball2d_cli.cpp, rigidbody2dcli/rigidbody2d_cli.cpp, rigidbody3dcli/rigidbody3d_cli.cpp: saveState, stepSystem", "scisim/HDF5File.h, scisim/HDF5File.cpp: write", "rigidbody2d/StateOutput.cpp, rigidbody3d/StateOutput.cpp", "scisim/ConstrainedMaps/ImpactFrictionMap.cpp: exportConstraintForcesToBinaryFile", "scisim/ConstrainedMaps/ImpactMaps/ImpactSolution.cpp: writeSolution"]}
{"id": "C91", "title": "A copy of a simulation is the same simulation, and another one", "statement": "A simulation that is constructed or assigned from another has the same state, forces, shapes and cached impulses. From then on neither is affected by what is done to the other, including its end. Setting a simulation back to a copy made earlier restores exactly what was copied. Every force and shape is released exactly once and never used afterwards.", "quantifier": "all histories of creations, copies, assignments, swaps, changes and destructions of any number of simulations of one kind, with any forces and shapes", "why_tests_cant": "sharing and double release depend on the order in which copies are made, changed and destroyed", "anchors": ["scisim/Utilities.h: Utilities::clone", "ball2d/Ball2DState.cpp, rigidbody2d/RigidBody2DState.cpp, rigidbody3d/RigidBody3DState.cpp: copy constructors, operator=", "ball2d/Forces, rigidbody2d, rigidbody3d/Forces, rigidbody3d/Geometry: clone", "ball2dqt4/GLWidget.cpp, rigidbody2dqt4/GLWidget.cpp, rigidbody3dqt4/GLWidget.cpp: openScene, resetSystem"]}
{"id": "C92", "title": "Staggered projections succeeds exactly when the contact law holds", "statement": "The error staggered projections compares with its tolerance is that of the whole system: every body takes part with its own mass and velocity, every contact with its own basis, friction coefficient, restitution and prescribed velocity, and with exactly the normal and friction impulses handed back. If the library measures the violation of the contact law of the problem it is given, success is reported exactly when the velocities and impulses handed back satisfy the law up to the tolerance at every contact.", "quantifier": "all systems of balls, 2D and 3D rigid bodies with any number of bodies and contacts, all impact and friction operators, iteration limits, tolerances and first guesses", "why_tests_cant": "the error is computed through several layers of index arithmetic that differ between the kinds of system; tests look at a few small systems", "anchors": ["scisim/ConstrainedMaps/StaggeredProjections.cpp: computePerContactForce, computeSobogusError, StaggeredProjections::solve", "scisim/ConstrainedMaps/Sobogus.cpp: SobogusFrictionProblem::flattenMass, initialize, computeError", "scisim/ConstrainedMaps/bogus: evalInfNormError"]}
{"id": "C93", "title": "Solvers keep complete copies of the operators they are made from", "statement": "A copy of an impact or friction operator, and an operator or friction solver made from others, is the operator that was asked for, with all nested operators and parameters, and is written to a file as the same bytes. It shares no memory with the operators it was made from: these can be destroyed first, as the scene parsers do, every object is destroyed exactly once, and nothing is left over. Making one ends the process exactly if a list of linear solvers for Ipopt in it is empty, has duplicates or names an unknown solver.", "quantifier": "all impact operators, nested to any depth, all friction operators, all contents of memory", "why_tests_cant": "whether a copy shares memory or misses a parameter shows only in the operations after it; nesting is unbounded", "anchors": ["scisim/ConstrainedMaps/ImpactMaps: clone of all operators, GROperator, GRROperator constructors", "scisim/ConstrainedMaps/FrictionMaps: clone of all operators", "scisim/ConstrainedMaps/StaggeredProjections.cpp, GRRFriction.cpp: constructors, destructors", "rigidbody3dutils/RigidBody3DSceneParser.cpp: loadImpactOperatorNoCoR"]}
{"id": "C94", "title": "Bodies keep their colours in the viewers", "statement": "In the viewers for balls and 2D rigid bodies after every opening of a scene, reset and step there is one colour for each body (after an opening or a reset: for each body that is there before the script is called), and no colour is too dark or too bright to be seen. The rigid body with a certain number has the same colour at all times, whatever was added, removed, opened and reset. A ball with a certain number keeps its colour in every step; as long as no step leaves fewer balls than before it, its colour is the one a reset gives, and not always otherwise. Choosing colours ends whenever visible ones keep coming from the random number generator.", "quantifier": "all sequences of opened scenes, resets and steps with any numbers of bodies, all random number generators", "why_tests_cant": "the colours depend on the whole history of the viewer and on every state of the generator", "anchors": ["ball2dqt4/GLWidget.cpp: openScene, stepSystem, resetSystem", "rigidbody2dqt4/GLWidget.cpp: generateBodyColors, stepSystem"]}
{"id": "C95", "title": "Products with sparse matrices are products with the matrices they stand for", "statement": "The objective, gradient and product that the gradient solver for impacts works with are those of the matrix which the sparse matrix stands for: the objective is half of x^T A x plus b^T x, and for symmetric matrices the gradient is A x + b, the product is A x, and the gradient is the slope of the objective. Eigen and MKL give the same values. No array is read or written outside of its bounds.", "quantifier": "all valid compressed square matrices of any size, with any places of stored entries, and all vectors", "why_tests_cant": "the storage is read as that of the transposed matrix or of a matrix stored by rows, which agrees with the matrix only for some inputs", "anchors": ["scisim/Math/QPSolvers/SparseMatrixVectorOperators.cpp", "scisim/ConstrainedMaps/ImpactMaps/LCPOperatorAPGD.cpp: flow"]}
{"id": "C96", "title": "Normals of planes and axes of cylinders keep length one", "statement": "After a scene is loaded, and after any calls of scripts, the normal of each plane in a scene of balls or rigid bodies in the plane has length one and its tangent is the normal turned by a right angle; the axis of each cylinder has length one. They point where the scene or the script says. Scripts in three dimensions keep the orientations of planes, and the positions, velocities and radii of cylinders. So the signed distance to a plane is the distance to its nearest point. The normal zero is an exception: it is refused in scenes of rigid bodies, and accepted in scenes of balls and from scripts, and gives a plane at distance zero from every point.", "quantifier": "all planes and cylinders, and all sequences of calls of scripts of any length", "why_tests_cant": "the length of a normal after a history of calls is an invariant of all histories", "anchors": ["ball2d/StaticGeometry/StaticPlane.cpp", "rigidbody2d/RigidBody2DStaticPlane.cpp", "rigidbody2dutils/RigidBody2DSceneParser.cpp: loadStaticPlanes", "rigidbody3d/StaticGeometry/StaticCylinder.cpp: setOrientation", "rigidbody2d/PythonScripting.cpp", "rigidbody3d/PythonScripting.cpp"]}
