# Formal model of breannansmith/scisim in Lean 4

## Layout

* `lean/Verif/Model/*.lean` — definitions only, one file per part of the code; every definition cites
  the file and lines in `/repo` it models and states its simplifications.
* `lean/Verif/Spec/*.lean` — small independent specifications (what the English property says).
* `lean/Verif/Lemmas/*.lean` — helper lemmas.
* `lean/Verif/Props/*.lean` — the property theorems, each with a non-vacuity `example` beside it.
* `MANIFEST.json` — property → theorem names and status; `seeded/LOG.jsonl` — mutation attempts.

## Trusted base

* Lean 4.33.0's kernel, and for the theorems at most the axioms `propext`, `Classical.choice`,
  `Quot.sound` (`#print axioms` is run on every theorem listed in the manifest; see "Axioms" below).
* The reading of `/repo`: nothing was compiled or run. The tie between C++ and Lean is the citation on
  every definition.
* **Scalars.** `scalar` (a C++ `double`) is modelled by exact arithmetic: an arbitrary linearly ordered
  field where only field operations occur, `ℝ` where the code uses `sqrt`, `sin`, `cos`. Rounding,
  NaN, infinities and overflow of doubles are *not* modelled, except where a property is about them
  (division by a zero bound, conversion of a non-finite double to an integer), where the model has an
  explicit "undefined behaviour" outcome or quantifies over every possible result of the conversion.
  C35 and C36 use `XR` (`Model/Float.lean`): a real number, an infinity or NaN, with IEEE 754 arithmetic and comparisons but without
  rounding and with one zero, because the solver divides by quantities that can vanish.
* **Integers.** `intmax_t` arithmetic in `Rational` is modelled on `Int`, with an overflow-checked
  variant where the property depends on it; the grid key is modelled modulo 2^32.
* **Byte streams.** Files and streams are `List UInt8`; a short read is a distinct outcome.
  `std::exit(EXIT_FAILURE)` is a distinct outcome. `assert` is compiled out (release semantics).
* Eigen dense vectors are functions/lists, Eigen sparse matrices are compressed-column triples
  where the code touches their storage and plain matrices where it only multiplies by them.
* External solvers (QL, Ipopt, so-bogus, Python callbacks, HDF5) are parameters with the assumed behaviour
  written as a hypothesis of the theorem.

### Which parts of the code are modelled

The table lists, for each source file, the modules under `lean/Verif/Model` whose definitions cite it (`?`: the module cites several files of that name). Lines within these files that no definition cites are
getters, `assert`s and other debug checks, output to the terminal, code that repeats cited code for another kind of simulation, and what the findings below name as not modelled.

| file | modules |
|---|---|
| `ball2d/Ball2DSim.cpp` | BallContacts, Camera, Dynamics, ForceOutput, HDF5, Maps, MassMatrix, Portal, Scripting, Snapshot, Statistics |
| `ball2d/Ball2DState.cpp` | Camera, Copies, Dynamics, Edits, Impact, MassMatrix, Scripting, Snapshot |
| `ball2d/Ball2DUtilities.cpp` | Snapshot |
| `ball2d/ConstraintCache.cpp` | ImpulseCache, Maps |
| `ball2d/PythonScripting.cpp` | Edits, PythonRefs, Scripting, Texts |
| `ball2d/SpatialGridDetector.cpp` | Grid |
| `ball2d/SymplecticEulerMap.cpp` | Dynamics, Snapshot |
| `ball2d/VerletMap.cpp` | Dynamics, Snapshot |
| `ball2d/Constraints/BallBallConstraint.cpp` | BallContacts, ForceOutput, Frames, Impact, Statistics |
| `ball2d/Constraints/BallStaticDrumConstraint.cpp` | BallContacts, ForceOutput, Frames, Impact, Statistics |
| `ball2d/Constraints/BallStaticPlaneConstraint.cpp` | BallContacts, ForceOutput, Frames, Impact, Statistics |
| `ball2d/Constraints/KinematicKickBallBallConstraint.cpp` | Impact, Statistics |
| `ball2d/Forces/Ball2DGravityForce.cpp` | Copies, Dynamics, Snapshot |
| `ball2d/Forces/PenaltyForce.cpp` | Copies, Dynamics, Snapshot |
| `ball2d/Portals/PlanarPortal.cpp` | BallContacts, Picture2D, Portal, Snapshot |
| `ball2d/StaticGeometry/StaticDrum.cpp` | Snapshot |
| `ball2d/StaticGeometry/StaticPlane.cpp` | Frames, PlaneFrames, Portal, Snapshot, Vec2 |
| `ball2dcli/ball2d_cli.cpp` | CLI, CommandLine, HDF5, Handles, PythonRefs, Scripting, Snapshot, Texts |
| `ball2dqt4/ContentWidget.cpp` | Camera, Viewer |
| `ball2dqt4/DisplayController2D.cpp` | Camera |
| `ball2dqt4/GLCircleRenderer2D.cpp` | Picture2D |
| `ball2dqt4/GLWidget.cpp` | Camera, Colours, Copies, Picture2D, PythonRefs, Texts, Viewer |
| `ball2dqt4/Window.cpp` | Viewer? |
| `ball2dqt4/ball2d_qt4.cpp` | PythonRefs |
| `ball2dutils/Ball2DSceneParser.cpp` | OperatorCopies, PlaneFrames, SceneBall2D, ScenePortals, SceneSolvers, SceneText |
| `post_processing/print_collisions.py` | PostProcessing |
| `post_processing/print_meshes.py` | PostProcessing |
| `post_processing/rb3d_processing.py` | PostProcessing |
| `rigidbody2d/BodyBodyConstraint.cpp` | ForceOutput, RigidContacts2D |
| `rigidbody2d/BoxBoxTools.cpp` | Geometry2D, ImpulseCache |
| `rigidbody2d/BoxGeometry.cpp` | Copies, Geometry2D, SceneRigid2D, Snapshot |
| `rigidbody2d/CircleBoxTools.cpp` | Geometry2D |
| `rigidbody2d/CircleCircleConstraint.cpp` | ForceOutput, Frames, Impact, RigidContacts2D |
| `rigidbody2d/CircleGeometry.cpp` | Copies, Geometry2D, SceneRigid2D, Snapshot |
| `rigidbody2d/ConstraintCache.cpp` | ImpulseCache |
| `rigidbody2d/KinematicKickCircleCircleConstraint.cpp` | RigidContacts2D |
| `rigidbody2d/KinematicObjectCircleConstraint.cpp` | ForceOutput, Frames, RigidContacts2D |
| `rigidbody2d/NearEarthGravityForce.cpp` | Copies, Dynamics, Snapshot |
| `rigidbody2d/PlanarPortal.cpp` | Picture2D, Portal, RigidContacts2D, Snapshot |
| `rigidbody2d/PythonScripting.cpp` | Edits, Scripting |
| `rigidbody2d/RigidBody2DSim.cpp` | Dynamics, ForceOutput, HDF5, Maps, MassMatrix, Portal, RigidContacts2D, Scripting, Snapshot |
| `rigidbody2d/RigidBody2DState.cpp` | Copies, Dynamics, Edits, Geometry2D, MassMatrix, Snapshot |
| `rigidbody2d/RigidBody2DStaticPlane.cpp` | PlaneFrames, Portal, Scripting, Snapshot |
| `rigidbody2d/RigidBody2DUtilities.cpp` | Snapshot |
| `rigidbody2d/SpatialGrid.cpp` | Grid |
| `rigidbody2d/StateOutput.cpp` | HDF5, Handles |
| `rigidbody2d/StaticPlaneBodyConstraint.cpp` | ForceOutput |
| `rigidbody2d/StaticPlaneCircleConstraint.cpp` | ForceOutput, Frames, RigidContacts2D |
| `rigidbody2d/SymplecticEulerMap.cpp` | Dynamics |
| `rigidbody2d/TeleportedCircleCircleConstraint.cpp` | ForceOutput, Frames, RigidContacts2D |
| `rigidbody2d/VerletMap.cpp` | Dynamics |
| `rigidbody2dcli/rigidbody2d_cli.cpp` | CommandLine, HDF5, Handles, PythonRefs, Snapshot, Texts |
| `rigidbody2dqt4/BoxGeometryRenderer.cpp` | Picture2D |
| `rigidbody2dqt4/CircleGeometryRenderer.cpp` | Picture2D |
| `rigidbody2dqt4/ContentWidget.cpp` | Viewer? |
| `rigidbody2dqt4/DisplayController2D.cpp` | Camera? |
| `rigidbody2dqt4/GLCircleRenderer2D.cpp` | Picture2D |
| `rigidbody2dqt4/GLWidget.cpp` | Camera, Colours, Copies, Picture2D, Texts, Viewer |
| `rigidbody2dqt4/Window.cpp` | Viewer? |
| `rigidbody2dqt4/rigidbody2d_qt4.cpp` | PythonRefs |
| `rigidbody2dutils/RigidBody2DSceneParser.cpp` | OperatorCopies, PlaneFrames, ScenePortals, SceneRigid2D, SceneSolvers, SceneText |
| `rigidbody3d/ConstraintCache.cpp` | ImpulseCache |
| `rigidbody3d/PythonScripting.cpp` | PlaneFrames, Scripting |
| `rigidbody3d/RigidBody3DSim.cpp` | Boundary3D, ForceOutput, Geometry3D, HDF5, MassMatrix, Portal3D, RigidContacts3D, Rotations, Snapshot3D, Statistics |
| `rigidbody3d/RigidBody3DState.cpp` | Copies, MassMatrix, Rotations, Snapshot3D |
| `rigidbody3d/RigidBody3DUtilities.cpp` | Snapshot |
| `rigidbody3d/SpatialGridDetector.cpp` | Grid |
| `rigidbody3d/StateOutput.cpp` | HDF5, Handles |
| `rigidbody3d/Constraints/BodyBodyConstraint.cpp` | ForceOutput?, Frames?, RigidContacts2D?, RigidContacts3D?, Statistics? |
| `rigidbody3d/Constraints/BoxBoxUtilities.cpp` | BoxBox3D |
| `rigidbody3d/Constraints/CollisionUtilities.cpp` | Segments3D |
| `rigidbody3d/Constraints/FrictionUtilities.cpp` | Frames |
| `rigidbody3d/Constraints/KinematicObjectBodyConstraint.cpp` | Frames, RigidContacts3D, Statistics |
| `rigidbody3d/Constraints/KinematicObjectSphereConstraint.cpp` | Frames, RigidContacts3D, Statistics |
| `rigidbody3d/Constraints/MeshMeshUtilities.cpp` | RigidContacts3D |
| `rigidbody3d/Constraints/SphereSphereConstraint.cpp` | Frames, Impact, RigidContacts3D, Statistics |
| `rigidbody3d/Constraints/StapleStapleUtilities.cpp` | Segments3D |
| `rigidbody3d/Constraints/StaticCylinderBodyConstraint.cpp` | Frames, RigidContacts3D, Sobogus, Statistics |
| `rigidbody3d/Constraints/StaticCylinderSphereConstraint.cpp` | ForceOutput, Frames, RigidContacts3D, Statistics |
| `rigidbody3d/Constraints/StaticPlaneBodyConstraint.cpp` | ForceOutput?, Frames?, RigidContacts2D?, RigidContacts3D?, Statistics? |
| `rigidbody3d/Constraints/StaticPlaneBoxConstraint.cpp` | ForceOutput, Frames, RigidContacts3D, Statistics |
| `rigidbody3d/Constraints/StaticPlaneSphereConstraint.cpp` | ForceOutput, Frames, Impact, RigidContacts3D, Statistics |
| `rigidbody3d/Constraints/TeleportedSphereSphereConstraint.cpp` | Frames, RigidContacts3D, Statistics |
| `rigidbody3d/Forces/NearEarthGravityForce.cpp` | Copies, Rotations, Snapshot3D |
| `rigidbody3d/Geometry/MomentTools.cpp` | Geometry3D |
| `rigidbody3d/Geometry/RigidBodyBox.cpp` | Copies, Geometry3D, SceneRigid3D, Snapshot3D |
| `rigidbody3d/Geometry/RigidBodySphere.cpp` | Copies, Geometry3D, SceneRigid3D, Snapshot3D, XmlExport |
| `rigidbody3d/Geometry/RigidBodyStaple.cpp` | Copies, Geometry3D, SceneRigid3D, Segments3D, Snapshot3D |
| `rigidbody3d/Geometry/RigidBodyTriangleMesh.cpp` | Copies, DistanceField, Geometry3D, RigidContacts3D, SceneRigid3D, Snapshot3D, XmlExport |
| `rigidbody3d/Portals/PlanarPortal.cpp` | Portal3D, RigidContacts3D, Snapshot3D |
| `rigidbody3d/StaticGeometry/StaticCylinder.cpp` | HDF5, Picture3D, PlaneFrames, RigidContacts3D, Snapshot3D |
| `rigidbody3d/StaticGeometry/StaticPlane.cpp` | Portal3D, Snapshot3D |
| `rigidbody3d/UnconstrainedMaps/DMVMap.cpp` | Rotations, Snapshot |
| `rigidbody3d/UnconstrainedMaps/ExponentialEulerMap.cpp` | Rotations, Snapshot |
| `rigidbody3d/UnconstrainedMaps/IntegrationTools.cpp` | Rotations |
| `rigidbody3d/UnconstrainedMaps/SplitHamMap.cpp` | Rotations, Snapshot |
| `rigidbody3dcli/rigidbody3d_cli.cpp` | CLI, CommandLine, HDF5, Handles, PostProcessing, PythonRefs, Scripting, Snapshot, Snapshot3D, Texts |
| `rigidbody3dqt4/ContentWidget.cpp` | Viewer |
| `rigidbody3dqt4/GLWidget.cpp` | Camera3D, Copies, Picture3D, Texts, Viewer |
| `rigidbody3dqt4/OrthographicCameraController.cpp` | Camera3D |
| `rigidbody3dqt4/PerspectiveCameraController.cpp` | Camera3D |
| `rigidbody3dqt4/Window.cpp` | Viewer? |
| `rigidbody3dqt4/rigidbody3d_qt4.cpp` | PythonRefs |
| `rigidbody3dqt4/Rendering/OpenGL3DSphereRenderer.cpp` | Picture3D |
| `rigidbody3dqt4/Rendering/PlanarPortalRenderer.cpp` | Picture3D |
| `rigidbody3dqt4/Rendering/StapleRenderer.cpp` | Picture3D |
| `rigidbody3dqt4/Rendering/StaticCylinderRenderer.cpp` | Picture3D |
| `rigidbody3dqt4/Rendering/StaticPlaneRenderer.cpp` | Picture3D |
| `rigidbody3dutils/RenderingState.cpp` | ScenePortals |
| `rigidbody3dutils/RigidBody3DSceneParser.cpp` | Boundary3D, OperatorCopies, PlaneFrames, Portal3D, ScenePortals, SceneRigid3D, SceneSolvers, SceneText |
| `rigidbody3dutils/XMLExporter.cpp` | XmlExport |
| `scisim/CollisionDetection/CollisionDetectionUtilities.cpp` | CCD |
| `scisim/ConstrainedMaps/ConstrainedMapUtilities.cpp` | OperatorCopies, Snapshot |
| `scisim/ConstrainedMaps/GRRFriction.cpp` | OperatorCopies, Snapshot, Staggered |
| `scisim/ConstrainedMaps/GeometricImpactFrictionMap.cpp` | ForceOutput, Maps, Scripting, Snapshot, Viewer |
| `scisim/ConstrainedMaps/ImpactFrictionMap.cpp` | ForceOutput, Handles, PostProcessing |
| `scisim/ConstrainedMaps/IpoptUtilities.cpp` | ExternalSolvers, OperatorCopies |
| `scisim/ConstrainedMaps/Sobogus.cpp` | Snapshot, Sobogus, StaggeredError |
| `scisim/ConstrainedMaps/StabilizedImpactFrictionMap.cpp` | ForceOutput, Maps, Scripting, Snapshot, Viewer |
| `scisim/ConstrainedMaps/StaggeredProjections.cpp` | OperatorCopies, Snapshot, Staggered, StaggeredError |
| `scisim/ConstrainedMaps/SymplecticEulerImpactFrictionMap.cpp` | ForceOutput, Maps, Scripting, Snapshot, Viewer |
| `scisim/ConstrainedMaps/FrictionMaps/BoundConstrainedMDPOperatorQL.cpp` | ExternalSolvers, Frames, OperatorCopies, Snapshot |
| `scisim/ConstrainedMaps/FrictionMaps/FischerBurmeisterBoundConstrained.cpp` | Residuals |
| `scisim/ConstrainedMaps/FrictionMaps/FischerBurmeisterSmooth.cpp` | Residuals |
| `scisim/ConstrainedMaps/FrictionMaps/FrictionOperator.cpp` | ForceOutput |
| `scisim/ConstrainedMaps/FrictionMaps/FrictionOperatorUtilities.cpp` | ForceOutput, Frames |
| `scisim/ConstrainedMaps/FrictionMaps/LinearMDPOperatorQL.cpp` | ExternalSolvers, Frames, OperatorCopies, Snapshot |
| `scisim/ConstrainedMaps/FrictionMaps/SmoothMDPOperatorIpopt.cpp` | ExternalSolvers, OperatorCopies, Snapshot |
| `scisim/ConstrainedMaps/ImpactMaps/FischerBurmeisterImpact.cpp` | Residuals |
| `scisim/ConstrainedMaps/ImpactMaps/GROperator.cpp` | Impact, OperatorCopies, Snapshot |
| `scisim/ConstrainedMaps/ImpactMaps/GRROperator.cpp` | Impact, OperatorCopies, Snapshot |
| `scisim/ConstrainedMaps/ImpactMaps/GaussSeidelOperator.cpp` | Impact, OperatorCopies, Snapshot |
| `scisim/ConstrainedMaps/ImpactMaps/ImpactMap.cpp` | ForceOutput, Maps, Scripting, Snapshot |
| `scisim/ConstrainedMaps/ImpactMaps/ImpactOperatorUtilities.cpp` | ForceOutput, Impact |
| `scisim/ConstrainedMaps/ImpactMaps/ImpactSolution.cpp` | ForceOutput, Handles, PostProcessing |
| `scisim/ConstrainedMaps/ImpactMaps/JacobiOperator.cpp` | OperatorCopies, Snapshot |
| `scisim/ConstrainedMaps/ImpactMaps/LCPOperatorAPGD.cpp` | Impact, OperatorCopies, Snapshot, Solvers |
| `scisim/ConstrainedMaps/ImpactMaps/LCPOperatorIpopt.cpp` | ExternalSolvers, OperatorCopies, Snapshot |
| `scisim/ConstrainedMaps/ImpactMaps/LCPOperatorQL.cpp` | ExternalSolvers, Impact, OperatorCopies, Snapshot |
| `scisim/ConstrainedMaps/ImpactMaps/LCPOperatorQLVP.cpp` | OperatorCopies, Snapshot |
| `scisim/ConstrainedMaps/ImpactMaps/MinMapImpact.cpp` | Solvers |
| `scisim/ConstrainedMaps/ImpactMaps/NonNegativeProjection.cpp` | Solvers |
| `scisim/ConstrainedMaps/bogus/Ball2DSobogusInterface.cpp` | Sobogus, StaggeredError |
| `scisim/ConstrainedMaps/bogus/RigidBody2DSobogusInterface.cpp` | Sobogus, StaggeredError |
| `scisim/ConstrainedMaps/bogus/RigidBody3DSobogusInterface.cpp` | Sobogus, StaggeredError |
| `scisim/Constraints/Constraint.cpp` | ForceOutput, Impact, RigidContacts2D, RigidContacts3D, Sobogus, Statistics |
| `scisim/HDF5File.cpp` | HDF5, Handles |
| `scisim/PythonObject.cpp` | PythonRefs |
| `scisim/PythonTools.cpp` | PythonRefs, Scripting, Texts |
| `scisim/ScriptingCallback.cpp` | PythonRefs, Scripting |
| `scisim/StringUtilities.cpp` | Codec, Strings |
| `scisim/Utilities.cpp` | Codec |
| `scisim/Math/MathDefines.h` | Float, Geometry2D, Vec2 |
| `scisim/Math/MathUtilities.cpp` | CLI, Codec, SparseMatrix, Vec2 |
| `scisim/Math/Rational.h` | Rational |
| `scisim/Math/QL/QLUtilities.cpp` | ExternalSolvers |
| `scisim/Math/QPSolvers/ProjectionSolvers.cpp` | Solvers |
| `scisim/Math/QPSolvers/SparseMatrixVectorOperators.cpp` | Products, Solvers |

Not modelled:

* Files with nothing but empty virtual destructors, plain constructors or getters: `ball2d/Forces/Ball2DForce.cpp`, `rigidbody2d/RigidBody2DForce.cpp`, `rigidbody2d/RigidBody2DGeometry.cpp`,
  `rigidbody3d/Forces/Force.cpp`, `rigidbody3d/Geometry/RigidBodyGeometry.cpp`, `ball2dutils/Ball2D.cpp`, `rigidbody2dutils/CameraSettings2D.cpp`, `scisim/ConstrainedMaps/FrictionSolver.cpp`,
  `scisim/ConstrainedMaps/ImpactMaps/ImpactOperator.cpp`, `scisim/ConstrainedMaps/QPTerminationOperator.cpp`, `scisim/Constraints/ConstrainedSystem.cpp`, `scisim/UnconstrainedMaps/UnconstrainedMap.cpp`,
  `scisim/UnconstrainedMaps/FlowableSystem.cpp` (its division `numBodies` is in the models of its callers), `rigidbody2dqt4/RigidBodyRenderer2D.cpp`, `rigidbody3dqt4/Rendering/BodyGeometryRenderer.cpp`.
* `scisim/Timer/TimeUtils.cpp`: the wall-clock time, which is only printed.
* `rigidbody3d/Constraints/SphereBodyConstraint.cpp`: never constructed.
* The tests (`ball2dtests`, `rigidbody3dtests`, `scisimtests`) and the example scripts in `assets`, which are inputs.
* Libraries: Eigen, so-bogus, rapidxml, QL, Ipopt, HDF5, Python, NumPy, Qt and OpenGL. Where the code relies on them their behaviour is a parameter or a hypothesis.

### Axioms

`#print axioms` on every theorem of `MANIFEST.json` prints a subset of `propext`, `Classical.choice`, `Quot.sound`. Nothing else is used: no axiom is
declared, and no proof uses `sorry`, `native_decide`, `bv_decide`, `implemented_by` or `unsafe`. Concrete witnesses over `ℚ` are evaluated by the
kernel (`decide +kernel`, which adds no axiom).

## Plan per property

| id | modelled | proof |
|----|----------|-------|
| C01 | `Rational` with `simplify`/`GCD` loop on `Int` | canonical form + value preservation per operator, lifted to all operation sequences |
| C02 | `extractFromString` on `List Char` | exact value for every literal; negative proper fractions are a counterexample, so `_partial` + negation |
| C03 | same | acceptance characterised; counterexamples (`1/2/3`, `1.2.3`, `1/0`) prove the negation, `_partial` for the rest |
| C04 | `tokenize`, trim functions | structural induction |
| C05 | codec combinators on byte lists | round trip with arbitrary suffix, by induction |
| C06–C08 | composition of codecs, name-tagged variants | round trip composition; unsupported names → counterexample |
| C09 | maps keyed as in the code | invariant over operation lists; key collisions → counterexample for box contacts |
| C10–C13 | CLI main loop as a state machine over an abstract deterministic step and an abstract file system | invariants/bisimulation, crash points as prefixes of writes |
| C14–C15 | grid over an ordered field with floor, key mod 2^32 | completeness and soundness for all box lists |
| C16–C17 | quadratic CCD over `ℝ` | case analysis of the quadratic |
| C18–C19, C51 | active-set construction | composition of C14 with narrow phase |
| C20–C22 | portals | algebra + floor bounds |
| C23–C25 | integrators over abstract forces | algebra, induction on steps |
| C26–C27 | 3D integrators over `ℝ` | matrix algebra |
| C28 | forces | algebra, derivatives with Mathlib |
| C29–C33 | impact operators | energy/momentum algebra in inner-product form, loop invariants |
| C34 | step maps over abstract system | case analysis |
| C35–C36 | APGD loop | loop invariants; degenerate step-size estimate → counterexample |
| C37 | residual functions | algebra |
| C38–C40 | friction solver loop, linear disk, frames | loop invariants, algebra |
| C41–C43 | state edits | refinement of in-place compaction to `filter` |
| C44–C47 | geometry | algebra, case analysis |
| C55–C57 | planar rigid-body contacts: relative velocities, impulses, momenta, the contact list | every contact in the computed list has one of seven shapes (invariant), then algebra; grid completeness for the list |
| C58 | portals in space: isometry, round trip, periodic box over any number of steps | orthonormal frames from `FromTwoVectors`, then coordinates; invariant over steps |
| C59–C61 | rigid-body contacts in space: relative velocities, impulses, momenta, the contact list, with the tests of two boxes and two staples of C73 and C74 | every contact in the computed list has one of eleven shapes (invariant), then algebra; grid completeness, C73, C74 and convexity for the list |
| C62 | collision statistics: counts, total depths and volumes by name | sums over lists; least separations and the volume of a lens by integration over slices |
| C63 | boundary treatment, order of a step, loading of the boundary | boxes touch bodies on all sides (C44); invariant over steps with arbitrary callbacks |
| C64 | state, geometry, distance fields, simulation and complete file of the 3D program (one file format record for all three programs) | round trip by composition of readers |
| C54 | `Sobogus::solve` with its renumbering, cut-out vectors, contact problem and write-back for the three kinds of system, over vectors with checked indices; the So-bogus library is an arbitrary function | loop invariants, then linear algebra in the orthonormal contact bases |
| C65 | scripts as trees of calls (next call depends on all replies), the static pointers behind the calls, NumPy views with their lifetime, all functions of the three `PythonScripting.cpp`; the Python interpreter itself is not modelled | refinement: careful scripts act on the machine as on the author's scene; invariant over calls for all scripts |
| C66 | the six callbacks with their set/forget pattern inside `flow` of the simulations and the maps, plugged into the command line programs of C11; integrators and solvers are arbitrary | log of callbacks by induction over the trajectory |
| C67 | `RigidBodyTriangleMesh::detectCollision` with its 32-bit index arithmetic; the specification is a sum of samples weighted by products of hat functions and does not mention cells | only two hats reach a point on each axis; the interpolant of a cell is affine along each axis |
| C68 | `HDF5File` (groups, `write`, `read`, `splitFullName`), the tables of both `StateOutput.cpp`, the three `writeBinaryState` and `saveState`, over a model of the HDF5 library as named arrays; the specification is what a reader finds | the data sets written are an explicit list with distinct names; numbering by type is a count of earlier elements |
| C69 | `exportConstraintForcesToBinaryFile`, `ImpactSolution`, `computeContactBases`, `computeImpactBases`, `computeN`, `formGeneralizedSmoothFrictionBasis`, over the contact lists of `Model/RigidContacts3D`, `RigidContacts2D` and `BallContacts`; the specification is the impulse a reader computes from a column, the bodies' centres and the scripted flags | per contact, with the arms of C55 and C59; sums over the columns |
| C70 | the whole of `Ball2DSceneParser.cpp` over a tree of elements (`Model/SceneText`, `SceneSolvers`, `SceneBall2D`), with libstdc++'s number extraction; the specification (`Spec/SceneText`, `SceneSolvers`, `SceneBall2D`) is a grammar of numerals and a relation between elements and scenes, for any way of reading texts | the parser equals the relation for the lenient reading (an `iff`, element by element); the exact reading implies the lenient one |
| C71 | the whole of `RigidBody2DSceneParser.cpp` (`Model/SceneRigid2D`) on the layers of C70; lists of numbers are `readScalarList` of C60; masses from the shapes of C35 | as C70; the computation of the mass matrix by induction over the bodies |
| C72 | the whole of `RigidBody3DSceneParser.cpp` (`Model/SceneRigid3D`) on the layers of C70 and C71; portals with the loops of C48; states from the shapes of C47 and the rotations of C13. Contents of mesh files are a parameter | as C70; renderers by the renumbering lemmas of C48; orientation by computing with the matrix of `AngleAxis` |
| C73 | the whole of `BoxBoxUtilities.cpp` of the 3D simulation (`Model/BoxBox3D`): the fifteen axes with their bias, the reference and incident face, the clipping of the incident face, the projection on the reference face, the closest points of two edges, the sign of the normal. Exact numbers | separating axes: two boxes are disjoint iff one of the fifteen axes separates them, proved from the hyperplane theorem and a case analysis on the number of strict inequalities (`Lemmas/SeparatingAxis3D`); clipping as intersection with half planes (`Lemmas/BoxClip`) |
| C74 | `closestPointSegmentSegment`, `computeClosestPointToBox`, `computeBoxSphereActiveSet`, `isActive` and `computeStapleHalfPlaneActiveSet` for staples (`Model/Segments3D`), exact numbers | minimum of a quadratic function over a square by clamping one variable, then the other; convexity |
| C75 | the callbacks of the two Ipopt problems, the loops over linear solvers, the calls of QL (`Model/ExternalSolvers`); what the libraries answer is a parameter | partial derivatives of quadratic functions against triplets of a sparse matrix (invariants of the loops over stored entries); variational inequality of a minimum over discs; optimality conditions of QL's problem |
| C76 | the members of `GLWidget` and `ContentWidget` as a machine driven by user events (`Model/Viewer`); a step is a `Program`, as for the command line programs; Qt's signals are modelled | invariant that relates the machine to the history of events (`Session`): the state is `trajectory` of the scene opened last; largest element of the set of changes |
| C77 | `stepSystem`'s end, `setMovieDir`, `setMovieFPS`, names of frames (`Model/Viewer`) | invariant of a running movie over all quiet events; division of the iteration by the steps per frame; order of padded numbers |
| C78 | the same machine, with the numbers of colours and renderers and drawing as an operation that is undefined without them (`Model/Viewer`) | invariant over all events; safety (no `ub`) by cases over the events |
| C79 | the planar camera controllers and the mouse handlers as a machine driven by events, with the projection, the viewport and the last picture as OpenGL state (`Model/Camera`) | invariant of the projection over all events; algebra of the projection for drag, zoom and centring |
| C80 | both spatial camera controllers with their angles and frames (`Model/Camera3D`); Eigen's `FromTwoVectors` as a matrix | invariant of frames and projection over all events; Parseval in the camera frame, a ball inside a cone, concavity of the sine for narrow windows |
| C81 | `XMLExporter::saveToXMLFile` as a function to the tree of elements (`Model/XmlExport`); how a `double` is written and Eigen's conversion to an angle and an axis are parameters | the texts are numerals in the sense of the format of C72, so the reader accepts them; the rotation vector gives the matrix back |
| C82 | `paintSystem` of the two planar programs as a function to the list of primitives handed to OpenGL, with its matrices (`Model/Picture2D`) | what primitives cover is in `Spec/Picture2D`; regular polygons by the edge that faces a point, boxes in their own coordinates, lines by homogeneous coordinates |
| C83 | `paintSystem` of the spatial program and its renderers as a function to the list of primitives handed to OpenGL, with its matrices (`Model/Picture3D`) | what primitives cover is in `Spec/Picture3D`; the sphere by induction over subdivisions with the bound on the edges halving each time, tubes by the quadrangle that faces a point, cylinders by products of quaternions and their conversion to angle and axis |
| C84 | the constructors and loops of `rb3d_processing.py` as functions from the model of files of C68, and the writing of files of contact forces (`Model/PostProcessing`); tests on floating point numbers and products of matrices are parameters | from the description of a file in C68, by induction over the bodies and the contacts that are left |
| C85 | `PythonObject`, `PythonTools` and the life of `PythonScripting` from the start of a program to its end, with a count of the references that the program owns (`Model/PythonRefs`); results of the interpreter are inputs | the invariant that counts are what the seven members refer to plus what is lost, by induction over the history |
| C86 | `getopt_long` as documented by GNU, `parseCommandLineOptions` and `main` up to the loop (`Model/CommandLine`); the scene is any function from names to results | induction over a grammar of command lines (`Spec/CommandLine`) that does not mention the parser |
| C87 | the precision and the text of times (`Model/Texts`) with decimal output rounded half to even | the product with the power of ten is an integer; rounding is within one half and monotone |
| C88 | `xmlFilePath` and the command composed for Python (`Model/Texts`), with a reader of plain Python literals | lists of characters |
| C89 | the identifiers of the HDF5 library, destructors and exceptions (`Model/Handles`), over a world that decides which calls fail | each function keeps the identifiers in use, by composition over scopes; an invariant over histories of objects |
| C90 | the same, with the trace of calls and the status of the programs | each function returns only if the calls that matter succeeded; without failures each returns |
| C91 | memory with addresses, pointers that may be null or dangling, the copy constructors member by member, swaps as moves, destructors (`Model/Copies`) | an invariant (every object has exactly one owner) and a refinement of plain values, over histories |
| C92 | the problem set up for computing errors, the forces of the contacts and their change of coordinates (`Model/StaggeredError`), on top of the models of C38 and C54 | specifications of the loops; the iteration of C38 with this error |
| C93 | operators as objects in memory with addresses; `clone`, constructors, destructors, `serialize` (`Model/OperatorCopies`) | induction on the operator; frame lemmas for memory |
| C94 | colours and random number generator of the viewers, over any events (`Model/Colours`) | invariant: the colours are the visible triples among the first draws |
| C95 | Eigen's and MKL's loops over the arrays of a compressed matrix, out-of-range access is `ub` (`Model/Products`) | induction over entries and columns; sums over stored entries are sums over all entries |
| C96 | the constructors of planes and cylinders (`Model/PlaneFrames`), and the calls of scripts of `Model/Scripting` in a row | invariant of each call, induction over the calls |
| C48–C50, C52–C53 | parser erasure, sparse matrices, caching, checks | induction |

Nothing in the list is considered inexpressible. What is *not* modelled: rendering, Qt front ends, XML syntax,
Python embedding, HDF5 file format, the numerical core of external solvers, floating-point rounding.

## Findings: properties that are false of the code

Where a property fails, the negation is proved with a witness (or for a whole class) and a `_partial` theorem covers the rest.

* C02: `-0.5` is read as `+1/2` (`C02_negative_proper_misread`).
* C03: `1/2/3`, `1.2.3`, `1e-4`, `0.01sec`, the empty string and `1/0` are accepted as numbers (`C03_accepted_garbage`).
* C04: `tokenize` of the empty string is undefined behaviour (`C04_tokenize_empty`; outside the property).
* C06: a ball simulation with a penalty force can be saved but never loaded (`C06_penalty_forces_lost`).
* C08: `grr_friction`, and symplectic Euler in the ball program, can be saved but never loaded.
* C09: rigid body contacts are cached per pair of bodies, so two contacts of a pair of boxes overwrite each other
  (`C09_box_contacts_confused`).
* C10: with force output, resuming from the final snapshot writes one frame more than the original run.
* C13: in overwrite mode there is a window in every save in which no snapshot exists; a resumed run begins by
  truncating and rewriting the snapshot it was resumed from.
* C14: with more than 2^32 cells the cell numbers wrap and a box can be reported to overlap itself (`C14_self_pair`);
  an empty list of boxes is undefined behaviour (`C14_empty_undefined`).
- **C18.** `fixed` flags are not consulted when contacts are generated: two fixed balls that overlap are in the contact list
  (`C18_fixed_pair`). With no ball at all the broad phase divides by zero (`C18_no_balls`).
- **C19.** A ball larger than the drum can miss its contact (`C19_large_ball`); the property is stated for balls no larger than the drum.
- **C20-C22.** For a static portal `m_bounds` is 0 and `int( floor( x / 0 ) )` is undefined behaviour in C++. Its value is multiplied by
  `m_bounds`, so the theorems hold for every value it could take (`junk`). The range of `int` is not modelled.
- **C51.** In a channel shorter than a ball's diameter a ball is in contact with its own image (`C51_self`), so indices of a contact need
  not be distinct; a ball that touches both planes of a portal ends the program (`C51_both_planes`).
- **C25.** The ball simulation ignores `fixed`: a fixed ball falls under gravity (`C25_false_ball`).
- **C28.** Two balls with the same centre: the penalty force divides by zero. The statements exclude coincident centres.
- **C25, three dimensions.** `split_ham` and `dmv` skip the conversion of momentum to velocity for scripted bodies, so the velocity of a moving
  scripted body is multiplied by its mass in every step (`C25_false_moving_3d`); `exponential_euler` ignores the flag
  (`C25_false_exponential_euler`).
- **C26.** Eigen's `JacobiSVD` is a parameter `svd` with the hypothesis that it is a singular value decomposition of matrices of positive
  determinant; `svd_exists` shows that the hypothesis can be met.
- **C29.** `BallStaticPlaneConstraint` and `BallStaticDrumConstraint` do not implement the pairwise response: an approaching contact with a
  plane or drum ends the program when the Gauss-Seidel operator visits it (`C29_total`).
- **C30.** (1) With tolerance zero, which the parsers accept, the operator can run for ever (`C30_zero_tolerance_runs_forever`). (2) With
  restitution one it can run for ever for any tolerance, if bodies are squeezed (`C30_elastic_squeeze_runs_forever`). (3) With warm starting,
  which the parsers accept, the impulses handed back include last step's although these were not applied to the velocities; the step applies
  them again (`C30_false_warm_start`).
- **C31.** (1) For positive restitution a contact that was separating may approach after the impact (`C31_false_nonpenetrating`). (2) With
  different restitutions kinetic energy can grow (`C31_false_mixed_restitution`); the property is stated for a shared restitution.
- **C34.** (1) The symplectic Euler impact-friction map takes a symplectic Euler step of its own whatever integrator is configured
  (`C34_symplectic_false`); with symplectic Euler configured the property holds (`C34_symplectic_ball`). (2) It cannot be used with 2D rigid bodies at
  all (`C34_symplectic_rb2d_exits`). (3) The stabilised map neither reads nor writes the cache (`C34_stabilized_cache`).
- **C52.** (1) The two contact points of a pair of 2D boxes share one cache entry, so the second starts from the impulse of the first
  (`C52_rb2d_false`). (2) Contacts through portals and contacts with scripted balls have no cache entry: warm starting ends the program
  (`C52_teleported_exits`). (3) In three dimensions cached forces are rotated from the old to the new contact normal, so normal impulse and friction
  magnitude persist (`C52_symplectic_friction_3d`); for normals within about 1e-6 of opposite the rotation is not exact.
- **C36.** The line search of the accelerated projected gradient descent divides by the size of the step direction. (1) Warm started with a vector
  whose positive part is all ones, it divides zero by zero and then never returns unless the start is already within tolerance
  (`C36_false_warm_start`). (2) A ball between two opposite walls, started cold, never returns either (`C36_false_opposed`).
- **C37.** (1) The residual of the smooth friction disk does not look at the sign of the sliding velocity when the impulse is on the boundary of the
  disk (`C37_smooth_false`). (2) The residual of the bound constrained friction problem does not look at the velocity when the impulse is at a bound
  (`C37_bound_false`). (3) `std::max` ignores a NaN in its second argument, so the min-map residual ignores NaN entries.
- **C38.** (1) If no iterate of staggered projections has an error below infinity (all are infinite or NaN) the starting impulses are used.
  (2) Staggered projections and `grr_friction` end the program if given extra kinematic terms, as the stabilised map does (`C38_extra_terms`).
  (3) `grr_friction` always reports success with error zero (`C38_one_pass`). (4) Friction impulses are bounded by the normal impulses of the chosen
  iterate; the impact solve that follows the loop changes the normal impulses afterwards.
- **C39.** Contacts of two balls in the plane do not implement the sampled friction disk (it is commented out), so the sampled operators end the program;
  2D planes and drums use one tangent direction whatever number of samples is asked for.
- **C41.** Bodies are marked for deletion by a NaN position, so a body that already has a NaN position is deleted as well (`C41_nan_deleted`).
- **C42.** A body whose geometry is removed keeps a reference read from uninitialised memory (`C42_dangling`).
- The Python callbacks that change or delete a static plane accept an index equal to the number of planes (`>` instead of `>=`), which is then
  undefined behaviour.
- **C44.** The collision box of a moving planar box covers its end pose only (`C44_false_moving_box`), unlike that of a moving circle.
- **C44.** The box of a staple is the box of its centreline: it leaves out the radius, so the staple sticks out of it (`C44_false_staple`).
- **C47.** The moments of a staple use the cube of a length where a square is meant, so they do not scale as moments do (`C47_false_staple`).
- **C47.** `MomentTools::computeMoments` is only called to check the stored moments of a mesh, and only in builds with assertions.
- **C48.** A renderer of a plane is accepted for the index after the last plane (`>` where `>=` is meant), `C48_renderer_index_false`.
- **C48.** rigidbody2d accepts Lees-Edwards bounds of zero, although its error message asks for positive bounds as ball2d does.
- **C53.** The identity check looks at stored entries only: a matrix without stored entries passes (`C53_identity_false`). NaN passes the identity check
  and the frame checks, because all comparisons with it are false (`C53_identity_nan_false`, `C53_frame_nan_false`).
- **C53.** The symmetry check of a matrix that is not square subtracts matrices of different shape, which is undefined behaviour (`C53_symmetric_shape`).
- **C50.** `RigidBody3DState::setState` leaves the previous matrices in place when the new state has no bodies; the scene parsers only call it on a fresh state.
- **C55.** The relative velocity of a box that touches a moving plane ignores the motion of the plane: a conveyor belt does not drag boxes
  (`C55_false_moving_plane`). Circles on the same plane do feel it.
- **C55.** When both images of a contact go through sliding portals only the second portal's velocity is used.
- **C55.** The velocity given to images is the velocity of the image under the portal's motion only when the tangents of the two planes are opposite.
- **C57.** The program exits as soon as the bounding box of a free box overlaps that of a scripted circle or box, even if the bodies are apart
  (`C57_exits_apart`). It also exits when the boxes of two images meet of which one is seen through a portal and the bodies are not both
  circles, and when a scripted circle and a free circle collide through a portal (`C57_portals_exits`, `C57_portal_square`).
- **C57, portals.** Without portals circles are tested on their whole paths during the step. As soon as the scene has a portal, even one that no
  body is near, the candidate pairs come from the boxes at the end of the step, so a circle that moves through another one during the step gets
  no contact (`C57_false_portal_swept`).
- **C58.** For portal planes whose normals lie on a diagonal no multiplier makes the portal a translation: the tangents of the two planes come from
  different rotations (`C58_false_diagonal`). The loader accepts −1 as first multiplier, which puts a body behind the other plane
  (`C58_false_multiplier`).
- **C59.** The relative velocity at a contact ignores the motion of scripted bodies, and that of planes and cylinders unless a sphere touches them
  (`C59_false_moving_plane`): a conveyor belt drags spheres but not boxes.
- **C59.** The contact of a mesh with a cylinder takes its normal from the centre of the body, not from the point of contact; the normal can be tangent to the
  wall (`C59_false_cylinder_normal`), so no impulse along it can stop the vertex.
- **C60.** Two staples, one of them scripted, get a contact between two free bodies: that one is scripted is excluded only in builds with assertions.
- **C61.** The program exits as soon as the bounding boxes of two bodies of different kinds overlap, even if the bodies are apart (`C61_exits_apart`), and in
  every scene with a plane and a free staple, or with a cylinder and a free box or staple, wherever they are (`C61_unsupported`).
- **C61, portals.** Only spheres are supported through portals: if the box of a body that is seen through a portal meets that of a body that is not, and they
  are not both spheres, the program exits, whether or not they touch (`C61_portals_exits`, `C61_portal_box`). Unlike in the plane, a scripted sphere and a free
  one may collide through a portal (`C61_tube`).
- **C61.** A sphere that is thicker than a cylinder has no contact with it when it is near the axis (`C61_false_fat_sphere`).
- **C61.** Staples can touch without a contact: the boxes that select the pairs leave out their radius (`C44_false_staple`, `C61_false_staples`). When the boxes
  meet and the staples have a point in common the program exits: `computeConstraints` is not implemented (`C61_staples_exit`).
- **C62.** A sphere that is larger than the cylinder around it is reported with a depth, although no displacement separates it from the outside; drums, portals and
  contacts of other bodies make the total of their kind NaN (`C62_nan`, `C62_ball_nan`).
- **C63.** A staple can leave the boundary by its radius without the program exiting (`C63_false_staple`), and a body whose position has become NaN is never
  noticed (`C63_false_nan`). The boundary is not tested before the first step, nor after the callback at the end of a step. The default lower corner of a state is
  the smallest positive number; it has no effect because the default behaviour is "none".
- **C64.** The scene parser accepts the integrator `exponential_euler` and the program saves it, but loading knows only `dmv`, `split_ham` and `NULL` and exits
  (`C64_exponential_euler_lost`). Staples cannot be saved at all: the program exits at the first snapshot (`C64_staple_run_ends`).
- **C54.** Called without contacts `Sobogus::solve` divides an integer by zero (`C54_no_contacts`); the maps check for this before the call. The library's
  iteration is not modelled: that its answer solves the problem it was given is a hypothesis.
- **C65.** (1) All index checks of the scripting interface compare with `>` where the message says "must be less than": the index one past the end is
  undefined behaviour in all three programs (`C65_false_one_past_end*`). (2) Python integers are converted modulo 2^32: index 4294967296 moves plane 0
  (`C65_false_wrap`). (3) In the coefficient callbacks the state pointer is null, yet the functions using it can be called (`C65_false_null`). (4) `insertBall`
  reallocates the vectors earlier NumPy arrays point to (`C65_false_dangling`); the same holds for arrays kept from one step to the next. (5) Coefficients are
  checked by assertions only (`C65_false_unchecked`). (6) `setStaticPlaneNormal` accepts the zero vector; the rules of the specification forbid it. (7) Cached
  impulses are not renumbered when bodies or planes are deleted; this is not part of the theorems. (8) In `rigidbody3d` writing an orientation leaves the
  mass matrix of the old orientation in place until the step ends; not part of the theorems.
- **C66.** A script's own variables are not part of a snapshot and the start-of-simulation function is not called on resuming, so that a resumed run can
  differ from an uninterrupted one if the script remembers anything (`C66_false_memory`); C11 and C12 therefore speak of scripts without memory. Scenes
  without an integrator call no step functions.
- **C67.** `detectCollision` accepts points on the far faces of the box but then needs a node beyond the grid: on the top face it reads behind the samples
  (`C67_false_far_face`), on the other two it reads the next row and reports a wrong normal (`C67_false_far_side`; the assertion `indices + 1 < dimensions`
  would fail in a debug build). Where the field is flat the normal is zero (`C67_false_flat`).
- **C68.** Configuration files of the ball program lack drums, portals, fixed flags and the motion of planes (`C68_false_ball2d`), those of the 2D program the
  motion of planes (`C68_false_rb2d`), those of the 3D program portals and the boundary (`C68_false_rb3d`). A staple among the geometries, used or not, ends the
  3D program when the first configuration is saved (`C68_staple_exits`). `HDF5File::write` accepts `long`, `read` always refuses it (`C68_false_long`).
- **C69.** The data set `collision_forces` has impulses; the step size is passed and not used (`C69_false_dt`). With a linearized friction disk the file is
  written from two entries of `beta` for each contact although there are as many as directions (`C69_false_linear`). Plane, drum and cylinder number `k` all
  have the code `-2 - k` (`C69_false_static`). A mesh in a cylinder ends the run (`C69_rb3d_written`), as does a contact through a portal in a 2D step without
  friction (`C69_false_portal_impacts`).
- **C70.** Whatever follows a number in an attribute is ignored (`C70_false_trailing`). For balls, drums and gravity the result of reading a number is not looked
  at: a text that is no number is 0, `fixed="true"` is false (`C70_false_silent`), and an empty text leaves a variable uninitialised (`C70_false_blank`). The
  timestep `1e-4` is read as 1, and `1/0` is accepted (`C70_false_timestep`). Masses and radii may be negative, the coefficient of restitution of an impact
  operator may be any number (`C70_false_unchecked`). The example in the comment above `loadStaggeredProjectionsFrictionSolver` is rejected
  (`C70_false_documented`). The lines of a file are joined without white space, so `<ball` at the end of a line and `x="1"` at the start of the next are
  `<ballx="1"` (`C70_false_lines`).
- **C71.** A decimal comma in a list cuts the number (`C71_false_trailing`); an empty list calls `back` of an empty string (`C71_false_empty`); two spaces between
  numbers are an error, since lists are split at single spaces (`C71_false_spaces`). A scene without an `integrator` element is loaded with a null integrator and
  timestep 0 (`C71_false_integrator`). `staggered_projections_friction_solver` can never be loaded: its friction operator calls `std::exit` (`C71_staggered`).
  The option to cache impulses is required but ignored with `stabilized` (`C71_false_cache`). Normals and positions may be infinite (`C71_false_infinite`).
- **C72.** Densities are not checked: a body of density -1 gets a negative mass (`C72_false_density`). Normals of planes and axes of cylinders may be zero
  (`C72_false_normal`). The number of the plane of a renderer is compared with `>` instead of `>=`, so that the one past the last is accepted, also for
  cylinders (`C72_false_renderer`). `geo_idx="-2147483648"` is given to `abs` (`C72_false_index`). The form of `grr_friction_solver` in the comment of the
  parser cannot be loaded (`C72_false_grr`). A staple with D = w = l is accepted; its centre of mass is 0/0 (`C72_false_staple`; the model totalises the
  quotient to 0, no theorem of C72 about states uses it). The centre of mass of a shape is added to the position without being turned (`C72_bodies`).
- **C73.** Boxes that only touch, along an edge, get no contact point: the clipping keeps what is strictly inside (`C73_false_touching`). For edges whose directions have
  `1 - (ua · ub)² <= 1/10000` the program does not look for the points of closest approach but takes the corners: two long beams that cross at
  half a degree get a point that lies in neither of them (`C73_false_edges`).
- **C74.** A segment whose squared length is at most 1e-8 is replaced by its first point: the distance can be wrong by 1e-4 for each segment (`C74_false_short`, `C74_short`).
  A box and a ball that touch end the program when the centre of the ball is in the box (`C74_box_ball`); no scene reaches this function, because the program exits
  before on a box and a sphere (C61).
- **C75.** `SmoothMDPNLP` adds the curvature of the friction constraints to the stored diagonal entries of the matrix. If one is not stored, as a zero need not be, it is
  added to entry 0 (`C75_friction_hessian_misplaced`), which is outside of the array if nothing is stored (`C75_friction_hessian_overrun`). Its status starts as
  `SUCCESS`: if Ipopt gives up before it calls `finalize_solution`, the initial guess is taken for the solution (`C75_friction_without_solver`). When all linear solvers
  fail, `SmoothMDPOperatorIpopt::solveQP` prints that it exits, but goes on (`C75_friction_all_failed`). A bound of 1e19 on the square of a friction impulse is no bound
  to Ipopt (`C75_friction_bound_ignored`). The QL operators go on after most failures, but the program ends for failures without a text (4, 6 to 100, negative numbers:
  `C75_ql_failures`).
- **C76.** `rigidbody2dqt4` does not clear the constraint cache when it opens a scene (the other programs do), and `m_sim0`, to which a reset returns, contains it too
  (`C76_second_scene_false`). A reset does not load the script again (`C76_script_memory_false`).
- **C77.** Changing the frame rate during a movie sets the frame number to 0, so that the first frames are overwritten (`C77_rate_change_false`). 2³² steps per frame are taken
  as 0 and divided by (`C77_no_steps_ub`).
- **C78.** Opening a scene with a frame rate that the spin box cannot show leaves the box at its limit; if it was there before, no signal is sent and the frame rate in force is not the
  one shown (`C78_controls_false`). Colours are counted before the script's start function is called (`C78_start_insert_ub`). `rigidbody2dqt4` renews renderers only if the
  number of geometries changed (`C78_replace_ub`), and ends if then there is a box (`C78_add_exit`).
- **C79.** `ball2dqt4`'s `openScene` sets the camera but not the projection, so that the scene is painted with the old one until the window is resized (`C79_open_balls_false`). The first
  drag after that makes the picture jump (`C79_jump_false`). Centring an empty scene leaves the projection stale (`C79_center_empty_false`); a scene of static drums only counts as
  empty (`C79_center_drums_false`). Before the window is shown `ball2dqt4` reads the viewport uninitialised (`C79_start_ub`) and `rigidbody2dqt4` assumes a square window
  (`C79_start_narrow_false`).
- **C80.** The constructor of the perspective camera says 60 degrees, `setPerspective` uses 54.43: a scene named on the command line is framed for the wrong one
  (`C80_first_false`). The orthographic camera is always 50 away and draws up to 100: larger scenes are cut off (`C80_center_big_false`). After centring, small scenes are nearer than the
  near plane (`C80_center_small_false`). Opening an empty scene without a camera makes the camera NaN (`C80_open_empty_false`). The menu items that select a camera ignore the lock
  (`C80_lock_menu_false`). How many digits `exportCameraSettings` writes depends on what earlier output left set on `std::cout`; `C80_export` and `C79_export` take the
  loss as a parameter.
- **C81.** A saved scene file has no `integrator`, so the program refuses every file it has saved (`C81_open_false`). With a box or a staple in the scene, saving ends the program
  (`C81_exit_false`). The reader adds the centre of mass of a mesh to the position of the body, and multiplies the rotation by that of the mesh; the writer does not undo this
  (`C81_mesh_false`). Numbers are written to six digits (`C81_digits_false`). Escaping of file names in XML is not modelled. `constraints/SphereBodyConstraint.cpp` is not used by any program
  (its only use is commented out), and most of its functions are stubs; it is not modelled.
- **C82.** `ball2dqt4` paints static drums after the balls, as solid black discs. Balls live inside drums, so in a scene with a drum they are not seen at all
  (`C82_drum_false`). Painting ends the program if a ball reaches both planes of a portal (`C82_exits`). Scripted rigid bodies are gray but their outlines
  beyond a portal are in the colour of the body (`C82_rigid_images`). Not modelled: the width of lines (`glPushAttrib( GL_COLOR )` and `GL_LINE_WIDTH` pass names of state variables
  where masks are expected), stipple patterns, axes, the heads-up display and the contact points of the rigid body program.
- **C83.** No fault in what the spatial program paints. The number of vertices of the sphere renderer fits in 32 bits up to 14 subdivisions; the program uses 4. Spheres have two white quarters, so
  that their turning is seen. Not modelled: normals and shading, the width of lines (names of state variables are passed to `glPushAttrib` where masks are expected, as in C82),
  what hides what (C79 and C80 have the cameras), and the heads-up display.
- **C84.** False for steps without contacts. `exportConstraintForcesToBinaryFile` and `writeSolution` leave after writing `collision_count` when it is zero, and a run without an
  impact operator and a friction solver does not write it at all. `CollisionState` of the post-processing tools looks up `collision_forces` in any case and ends with an error
  (`C84_no_contacts_false`, `C84_no_solver_false`). Not modelled: the printing itself, and command line arguments of the tools. The model is of Python 2, for
  which the tools are written (`print` statements, integer division). The tool also numbers the bodies it prints by their place among the bodies with meshes, which is
  not the number by which a contact refers to them once a body of another shape comes first (`C84_numbers_false`).
- **C85.** False of the command line programs. `g_scripting` is a static variable, constructed before `main`; `main` registers `exitCleanup`, which calls `Py_Finalize`, with `atexit`. At the end
  of the program `exitCleanup` runs first and `~PythonScripting` then decreases counts of objects of an interpreter that is gone (`C85_command_line_false`). The interactive programs have it in a
  window that is a variable of `main` and do it in the right order. In all programs `loadModule` keeps the result of `PyImport_ReloadModule`, a new reference, in a plain pointer and never
  gives it back (`C85_leak_false`). Not modelled: references that Python code itself owns, and borrowed pointers into arrays, which are in C65.
- **C86.** (1) A scene without `end_time` "will run indefinitely", but `main` first converts `ceil( infinity )` to `unsigned` (`C86_endless_false`); on common machines the result is 0 and frame numbers
  get one digit, so that names no longer sort (compare C12, which has the width as a hypothesis). (2) With `-r` all other options are read, checked and ignored (`C86_resume_false`). (3) `-f` is
  documented as "ignored if no output directory specified"; it decides when snapshots are written and makes the program fail if it does not fit the time step; `-f -4294967271` is 25, `-f 0` is
  each step (`C86_frequency_false`). (4) `-e 5min` is 5 (`C86_number_false`). Not covered by the grammar: letters joined in one word (`-hi`) and abbreviated names, which the model has.
- **C87.** With a time step that is a fraction there are always six decimals: for `1/10000000` the times of different steps, e.g. in the lines that announce files, are equal (`C87_fraction_false`).
- **C88.** `/scene.xml` has the path "" instead of "/" (`C88_root_false`). `loadModule` puts the path between quotes without escaping it: in `/home/o'brien` the program ends with a syntax error, and a
  directory can be named so that opening a scene in it runs commands (`C88_quote_false`).
- **C89.** `HDF5File::open` on an object that has a file overwrites the identifier: the first file is never closed (`C89_reopen_false`). The programs do not do this.
- **C90.** `~HDF5File` ignores the result of `H5Fclose`: if the data do not fit on the disk when they are flushed there, the program still reports success (`C90_close_false`). The results of
  `H5Sselect_hyperslab` are ignored as well (`C90_select_false`). With friction the file of forces is written inside `flow`, outside of any `try` block: a failure ends the program with `std::terminate` instead
  of a message and a status (`C90_friction_false`).
- **C94.** In the viewer for balls, a ball that is added after others were removed gets another colour than the earlier ball with its number; the generator is not set back as it is for rigid bodies. After a reset the same run shows the earlier colours only up to that point (`C94_balls_reset_false`). Bodies that the script adds in the callback at the start of the simulation have no colour until the first step; C78 treats drawing them.
- **C95.** The code multiplies with the transposed matrix with Eigen, and with MKL with the transposed matrix in the objective only. For a matrix that is not symmetric Eigen and MKL give different gradients (`C95_symmetry_needed`); symmetry is checked in debug builds only.
- **C96.** A plane with the normal zero is refused by the parser for rigid bodies only. The parser for balls and `setStaticPlaneNormal` accept it; the plane then has distance zero from every point (`C96_zero_false`).
