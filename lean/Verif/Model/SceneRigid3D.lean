import Verif.Model.SceneRigid2D
import Verif.Model.Geometry3D
import Verif.Model.Rotations
import Verif.Model.Maps
/-!
# Scene files of the simulation of three dimensional rigid bodies

rigidbody3dutils/RigidBody3DSceneParser.cpp. Objects are represented by the arguments of their constructors: normals and axes are not yet normalized.
`loadScripting`, `loadEndTime`, `loadDt` and `loadSolvers` are shared with the other programs. Numbers of planes, cylinders and geometries are supposed to be
smaller than 2^31, so that the conversions of indices between `int`, `unsigned` and `size_t` do not change them.
-/

namespace Scisim

/-- Three numbers of a list -/
abbrev ListTriple := ListScalar × ListScalar × ListScalar

/-- A list of three numbers, e.g. rigidbody3dutils/RigidBody3DSceneParser.cpp:484-504 -/
def loadTriple (nd : XmlNode) (a : String) : Outcome ListTriple :=
  nd.scalarList a 3 >>= fun l =>
    match l with
    | [x, y, z] => .ok (x, y, z)
    | _ => .fail

/-- Three numbers of a stream, rigidbody3dutils/RigidBody3DSceneParser.cpp:286-310 -/
def loadVector (nd : XmlNode) (a : String) : Outcome (ℚ × ℚ × ℚ) := do
  let t ← nd.require a
  match components t.toList.length t.toList with
  | [x, y, z] => .ok (x, y, z)
  | _ => .fail

/-- `loadNearEarthGravityForce`, the body of the loop, rigidbody3dutils/RigidBody3DSceneParser.cpp:484-504 -/
def loadNearEarthGravity3D (nd : XmlNode) : Outcome ListTriple := loadTriple nd "f"

/-! ## Cameras -/

/-- The plane of the orthographic projection -/
inductive ProjectionPlane where
  | xy | zy | zx
deriving DecidableEq

/-- `PerspectiveCameraSettings` or `OrthographicCameraSettings` -/
inductive Camera3D where
  | perspective (theta phi rho : ℚ) (lookat up : ListTriple)
  | orthographic (plane : ProjectionPlane) (center : ListTriple) (scale : ℚ)
deriving DecidableEq

/-- What is set of the `RenderingState` -/
structure View3D where
  camera : Camera3D
  fps : ℕ
  renderAtFps : Bool
  locked : Bool
deriving DecidableEq

/-- `loadPerspectiveCameraSettings`, rigidbody3dutils/RigidBody3DSceneParser.cpp:894-1036 -/
def loadPerspective (nd : XmlNode) : Outcome View3D := do
  let theta ← nd.scalar "theta"
  let phi ← nd.scalar "phi"
  let rho ← nd.scalar "rho"
  failIf (rho ≤ 0)
  let lookat ← loadTriple nd "lookat"
  let up ← loadTriple nd "up"
  let fps ← nd.unsigned "fps"
  let render ← nd.flag "render_at_fps"
  let locked ← nd.flag "locked"
  .ok ⟨.perspective theta phi rho lookat up, fps, render, locked⟩

/-- The projection plane, rigidbody3dutils/RigidBody3DSceneParser.cpp:1046-1061 -/
def loadProjectionPlane (nd : XmlNode) : Outcome ProjectionPlane := do
  let t ← nd.require "projection_plane"
  if t = "xy" then .ok .xy else if t = "zy" then .ok .zy else if t = "zx" then .ok .zx else .fail

/-- `loadOrthographicCameraSettings`, rigidbody3dutils/RigidBody3DSceneParser.cpp:1038-1150 -/
def loadOrthographic (nd : XmlNode) : Outcome View3D := do
  let plane ← loadProjectionPlane nd
  let center ← loadTriple nd "x"
  let scale ← nd.scalar "scale"
  failIf (scale ≤ 0)
  let fps ← nd.unsigned "fps"
  let render ← nd.flag "render_at_fps"
  let locked ← nd.flag "locked"
  .ok ⟨.orthographic plane center scale, fps, render, locked⟩

/-- An element that need not be there -/
def loadOptional {α : Type} (load : XmlNode → Outcome α) (root : XmlNode) (name : String) : Outcome (Option α) :=
  match root.first name with
  | none => .ok none
  | some nd => load nd >>= fun x => .ok (some x)

/-- The two cameras, rigidbody3dutils/RigidBody3DSceneParser.cpp:2244-2262: what the second sets replaces what the first set -/
def loadView (root : XmlNode) : Outcome (Option View3D) := do
  let p ← loadOptional loadPerspective root "camera_perspective"
  let o ← loadOptional loadOrthographic root "camera_orthographic"
  .ok (match o with | some v => some v | none => p)

/-! ## Integrator and boundary -/

/-- `SplitHamMap`, `DMVMap`, `ExponentialEulerMap` -/
inductive Rigid3DIntegrator where
  | splitHam | dmv | exponentialEuler
deriving DecidableEq

/-- `loadUnconstrainedMap`, rigidbody3dutils/RigidBody3DSceneParser.cpp:1152-1209 -/
def loadRigid3DIntegrator (root : XmlNode) : Outcome (String × Rat64 × Rigid3DIntegrator) := do
  let nd ← root.requireChild "integrator"
  let (t, dt) ← loadDt nd
  let type ← nd.require "type"
  if type = "split_ham" then .ok (t, dt, .splitHam)
  else if type = "dmv" then .ok (t, dt, .dmv)
  else if type = "exponential_euler" then .ok (t, dt, .exponentialEuler)
  else .fail

/-- `x >= y` for numbers of lists -/
def ListScalar.ge : ListScalar → ListScalar → Bool
  | .finite x, .finite y => decide (y ≤ x)
  | .finite _, .inf negative => negative
  | .inf negative, .finite _ => !negative
  | .inf a, .inf b => !a || b

/-- The bounds of the simulation -/
structure Boundary3D where
  /-- `SimBoundaryBehavior::EXIT`, otherwise `NONE` -/
  exits : Bool
  min : ListTriple
  max : ListTriple
deriving DecidableEq

/-- `loadSimulationBoundary`, rigidbody3dutils/RigidBody3DSceneParser.cpp:2126-2198 -/
def loadBoundary (nd : XmlNode) : Outcome Boundary3D := do
  let t ← nd.require "violation_behavior"
  let exits ← (if t = "none" then .ok false else if t = "exit" then .ok true else .fail : Outcome Bool)
  let min ← loadTriple nd "min"
  let max ← loadTriple nd "max"
  failIf (min.1.ge max.1 || min.2.1.ge max.2.1 || min.2.2.ge max.2.2)
  .ok ⟨exits, min, max⟩

/-! ## Planes and cylinders -/

/-- `StaticPlane` -/
structure Plane3DElement where
  x : ListTriple
  n : ListTriple
deriving DecidableEq

/-- The body of the loop of `loadStaticPlanes`, rigidbody3dutils/RigidBody3DSceneParser.cpp:506-547 -/
def loadPlane3D (nd : XmlNode) : Outcome Plane3DElement := do
  let x ← loadTriple nd "x"
  let n ← loadTriple nd "n"
  .ok ⟨x, n⟩

/-- `StaticCylinder` -/
structure CylinderElement where
  x : ListTriple
  axis : ListTriple
  r : ℚ
deriving DecidableEq

/-- The body of the loop of `loadStaticCylinders`, rigidbody3dutils/RigidBody3DSceneParser.cpp:739-795 -/
def loadCylinder (nd : XmlNode) : Outcome CylinderElement := do
  let x ← loadTriple nd "x"
  let axis ← loadTriple nd "axis"
  let r ← nd.scalar "R"
  failIf (r ≤ 0)
  .ok ⟨x, axis, r⟩

/-- `x >= 0.0` for a number of a list -/
def ListScalar.nonnegative : ListScalar → Bool
  | .finite q => decide (0 ≤ q)
  | .inf negative => !negative

/-- Half widths of a plane -/
abbrev HalfWidths := ListScalar × ListScalar

instance : Zero HalfWidths := ⟨(.finite 0, .finite 0)⟩

/-- The body of the loop of `loadStaticPlaneRenderers`, rigidbody3dutils/RigidBody3DSceneParser.cpp:799-840; `n` is the number of planes -/
def loadPlaneRenderer (n : ℕ) (nd : XmlNode) : Outcome (PlaneRenderer HalfWidths) := do
  let i ← nd.size "plane"
  failIf (i > n)
  let r ← loadPoint2 nd "r"
  failIf (!(r.1.nonnegative && r.2.nonnegative))
  .ok ⟨i, r⟩

/-- The body of the loop of `loadStaticCylinderRenderers`, rigidbody3dutils/RigidBody3DSceneParser.cpp:849-890: the index of the cylinder and the length; `n` is the number of
cylinders -/
def loadCylinderRenderer (n : ℕ) (nd : XmlNode) : Outcome (ℕ × ℚ) := do
  let i ← nd.size "cylinder_idx"
  failIf (i > n)
  let l ← nd.scalar "L"
  failIf (l < 0)
  .ok (i, l)

/-! ## Portals -/

/-- `StringUtilities::extractScalarFromString` for `int`, scisim/StringUtilities.h:71-92: `std::numeric_limits<int>::infinity()` is 0 -/
def extractListInt (s : List Char) : Outcome ℤ :=
  match extractInt32 s with
  | .value z _ => .ok z
  | _ => if s = ['-', 'i', 'n', 'f'] then .ok 0 else if s = ['i', 'n', 'f'] then .ok 0 else .fail

/-- `StringUtilities::readScalarList` for an `Array3i`, scisim/StringUtilities.h:94-111 -/
def readIntList (s : List Char) (n : ℕ) : Outcome (List ℤ) :=
  tokenize s ' ' >>= fun tokens => if tokens.length ≠ n then .fail else mapNodes extractListInt tokens

/-- `Array3i` -/
abbrev Multiplier := ℤ × ℤ × ℤ

/-- An entry of the multiplier that is rejected -/
def badFactor (z : ℤ) : Bool := z < -1 || z = 0 || z > 1

/-- The multiplier of a portal, rigidbody3dutils/RigidBody3DSceneParser.cpp:632-651 -/
def loadMultiplier (nd : XmlNode) : Outcome Multiplier := do
  let t ← nd.require "multiplier"
  let l ← readIntList t.toList 3
  match l with
  | [x, y, z] => if badFactor x || badFactor y || badFactor z then .fail else .ok (x, y, z)
  | _ => .fail

/-- The loop over the `planar_portal` elements, rigidbody3dutils/RigidBody3DSceneParser.cpp:568-652 -/
def loadPortalElements (n : ℕ) : List XmlNode → List ((ℕ × ℕ) × Multiplier) → Outcome (List ((ℕ × ℕ) × Multiplier))
  | [], acc => .ok acc
  | nd :: rest, acc => (readPair n (acc.map (·.1)) nd.portalNode).bind fun p => (loadMultiplier nd).bind fun m => loadPortalElements n rest (acc ++ [(p, m)])

/-- `loadPlanarPortals`, rigidbody3dutils/RigidBody3DSceneParser.cpp:549-737; `loadPlanarPortals3` is this for nodes that are given by the values of their attributes -/
def loadPortals3D (planes : List Plane3DElement) (renderers : List (PlaneRenderer HalfWidths)) (nodes : List XmlNode) : Outcome (Loaded3 Plane3DElement Multiplier HalfWidths) :=
  if nodes.isEmpty then .ok ⟨planes, [], renderers, []⟩
  else if planes.length < 2 then .fail
  else
    (loadPortalElements planes.length nodes []).bind fun pairs =>
      (buildPortals planes pairs).bind fun portals =>
        let indices := ((usedIndices pairs).insertionSort (· ≤ ·)).reverse
        (eraseEach3 indices planes renderers).bind fun (planes', rs) =>
          .ok ⟨planes', portals, renumberRenderers indices rs, portalRenderers renderers 0 pairs⟩

/-! ## Bodies -/

/-- `RigidBodySphere`, `RigidBodyBox`, `RigidBodyStaple`, `RigidBodyTriangleMesh` -/
inductive Geometry3DElement where
  | sphere (r : ℚ)
  | box (r : ListTriple)
  | staple (w l D : ℚ)
  | mesh (filename : String)
deriving DecidableEq

/-- What becomes of reading the mesh in a file: `fail` if the constructor throws a `std::string`, `exit` if it ends the program. The contents of the files are
not modelled. -/
abbrev MeshFiles := String → Outcome Unit

/-- The body of the first loop of `loadSimState`, rigidbody3dutils/RigidBody3DSceneParser.cpp:129-271 -/
def loadGeometry3D (files : MeshFiles) (nd : XmlNode) : Outcome Geometry3DElement := do
  let type ← nd.require "type"
  if type = "sphere" then do
    let r ← nd.scalar "r"
    failIf (r ≤ 0)
    .ok (.sphere r)
  else if type = "box" then do
    let r ← loadTriple nd "r"
    failIf (r.1.nonpositive || r.2.1.nonpositive || r.2.2.nonpositive)
    .ok (.box r)
  else if type = "staple" then do
    let w ← nd.scalar "w"
    failIf (w ≤ 0)
    let l ← nd.scalar "l"
    failIf (l ≤ 0)
    let D ← nd.scalar "D"
    failIf (D ≤ 0)
    failIf (D > w || D > l)
    .ok (.staple w l D)
  else if type = "mesh" then do
    let f ← nd.require "filename"
    files f
    .ok (.mesh f)
  else .fail

/-- What is read of one `rigid_body_with_density` element -/
structure Body3DElement where
  x : ℚ × ℚ × ℚ
  v : ℚ × ℚ × ℚ
  omega : ℚ × ℚ × ℚ
  rho : ℚ
  fixed : Bool
  geo : ℕ
  /-- the rotation vector, if given -/
  rotation : Option ListTriple
deriving DecidableEq

/-- The index of the geometry, rigidbody3dutils/RigidBody3DSceneParser.cpp:398-432; `n` is `geometry.size()`. `abs` of the smallest `int` is undefined behaviour. -/
def loadGeoIdx (n : ℕ) (nd : XmlNode) : Outcome ℕ := do
  let z ← nd.int "geo_idx"
  if z < 0 then
    if z = -2147483648 then .ub
    else if z.natAbs > n then .fail
    else .ok (n + z).toNat
  else if z.toNat ≥ n then .fail
  else .ok z.toNat

/-- The optional rotation vector, rigidbody3dutils/RigidBody3DSceneParser.cpp:434-452 -/
def loadRotation (nd : XmlNode) : Outcome (Option ListTriple) :=
  match nd.attr "R" with
  | none => .ok none
  | some _ => loadTriple nd "R" >>= fun r => .ok (some r)

/-- The body of the second loop of `loadSimState`, rigidbody3dutils/RigidBody3DSceneParser.cpp:282-463, up to the computation of the mass -/
def loadBody3D (n : ℕ) (nd : XmlNode) : Outcome Body3DElement := do
  let x ← loadVector nd "x"
  let v ← loadVector nd "v"
  let omega ← loadVector nd "omega"
  let rho ← nd.scalar "rho"
  let fixed ← nd.flag "fixed"
  let geo ← loadGeoIdx n nd
  let rotation ← loadRotation nd
  .ok ⟨x, v, omega, rho, fixed, geo, rotation⟩

/-- What `parseXMLSceneFile` sets. The state of the bodies is computed from `geometry` and `bodies`, see `bodyStates3D`. -/
structure Rigid3DScene where
  script : String
  endTime : Option ℚ
  forces : List ListTriple
  view : Option View3D
  dtText : String
  dt : Rat64
  integrator : Rigid3DIntegrator
  solvers : SolverSetup
  boundary : Option Boundary3D
  planes : List Plane3DElement
  cylinders : List CylinderElement
  planeRenderers : List (PlaneRenderer HalfWidths)
  cylinderRenderers : List (ℕ × ℚ)
  portals : List (LoadedPortal Plane3DElement Multiplier)
  portalRenderers : List (PortalRenderer HalfWidths)
  geometry : List Geometry3DElement
  bodies : List Body3DElement
deriving DecidableEq

/-- `RigidBody3DSceneParser::parseXMLSceneFile` from the root on, rigidbody3dutils/RigidBody3DSceneParser.cpp:2218-2404. `std::sort` of the plane renderers leaves open the order of
renderers of the same plane; here it is kept. -/
def loadRigid3DScene (b : Build) (files : MeshFiles) (root : XmlNode) : Outcome Rigid3DScene := do
  let script ← loadScripting root
  let endTime ← loadEndTime root
  let forces ← mapNodes loadNearEarthGravity3D (root.all "near_earth_gravity")
  let view ← loadView root
  let (dtText, dt, integrator) ← loadRigid3DIntegrator root
  let solvers ← loadSolvers b .rigidBody3D root
  let boundary ← loadOptional loadBoundary root "simulation_boundary"
  let planes ← mapNodes loadPlane3D (root.all "static_plane")
  let cylinders ← mapNodes loadCylinder (root.all "static_cylinder")
  let renderers ← mapNodes (loadPlaneRenderer planes.length) (root.all "static_plane_renderer")
  let cylinderRenderers ← mapNodes (loadCylinderRenderer cylinders.length) (root.all "static_cylinder_renderer")
  let l ← loadPortals3D planes (renderers.insertionSort fun a b => a.index ≤ b.index) (root.all "planar_portal")
  let geometry ← mapNodes (loadGeometry3D files) (root.all "geometry")
  let bodies ← mapNodes (loadBody3D geometry.length) (root.all "rigid_body_with_density")
  .ok ⟨script, endTime, forces, view, dtText, dt, integrator, solvers, boundary, l.planes, cylinders, l.planeRenderers, cylinderRenderers, l.portals, l.portalRenderers, geometry, bodies⟩

/-- `RigidBody3DSceneParser::parseXMLSceneFile`, rigidbody3dutils/RigidBody3DSceneParser.cpp:2202-2404; `doc` is the document -/
def parseRigid3DScene (b : Build) (files : MeshFiles) (doc : XmlNode) : Outcome Rigid3DScene := do
  let root ← doc.requireChild "rigidbody3d_scene"
  loadRigid3DScene b files root

/-! ## The state of the bodies -/

/-- The moments that a mesh file contains: `m_volume`, `m_center_of_mass`, `m_I_on_rho`, `m_R`, rigidbody3d/Geometry/RigidBodyTriangleMesh.h -/
structure MeshMoments where
  volume : ℝ
  center : Vec3
  I : Vec3
  R : Mat3

/-- Three numbers as a vector; `none` if one is infinite: these are not modelled -/
def ListTriple.vec : ListTriple → Option Vec3
  | (.finite x, .finite y, .finite z) => some ![(x : ℝ), (y : ℝ), (z : ℝ)]
  | _ => none

/-- Three numbers as a vector -/
def vecOf (p : ℚ × ℚ × ℚ) : Vec3 := ![(p.1 : ℝ), (p.2.1 : ℝ), (p.2.2 : ℝ)]

/-- `computeMassAndInertia`: rigidbody3d/Geometry/RigidBodySphere.cpp:10-18, RigidBodyBox.cpp:11-18, RigidBodyStaple.cpp:12-58, RigidBodyTriangleMesh.cpp:202-208.
The second result is `R`. -/
noncomputable def Geometry3DElement.massAndInertia (meshes : String → MeshMoments) (g : Geometry3DElement) (rho : ℚ) : Option (MassProps × Mat3) :=
  match g with
  | .sphere r => some (sphereMass r rho, 1)
  | .box r => (ListTriple.vec r).map fun w => (boxMass w rho, 1)
  | .staple w l D => some (stapleMass (Staple.make w l D) rho, 1)
  | .mesh f => some (⟨rho * (meshes f).volume, (meshes f).center, fun i => rho * (meshes f).I i⟩, (meshes f).R)

/-- The orientation from a rotation vector, rigidbody3dutils/RigidBody3DSceneParser.cpp:453-461 -/
noncomputable def rotationMatrix (r : Vec3) : Mat3 := if norm3 r ≠ 0 then angleAxisMatrix (norm3 r) (normalized3 r) else 1

/-- `R0`, rigidbody3dutils/RigidBody3DSceneParser.cpp:434-462 -/
noncomputable def Body3DElement.R0 (c : Body3DElement) : Option Mat3 :=
  match c.rotation with
  | none => some 1
  | some r => (ListTriple.vec r).map rotationMatrix

/-- The state of a body -/
structure BodyState3D where
  x : Vec3
  v : Vec3
  M : ℝ
  R : Mat3
  omega : Vec3
  I : Vec3

/-- The state of a body, rigidbody3dutils/RigidBody3DSceneParser.cpp:464-474. An index outside the geometry is undefined behaviour; `none` stands for a body with infinite
numbers, not modelled. -/
noncomputable def bodyState3D (meshes : String → MeshMoments) (geometry : List Geometry3DElement) (c : Body3DElement) : Outcome (Option BodyState3D) :=
  match geometry[c.geo]? with
  | none => .ub
  | some g =>
    match g.massAndInertia meshes c.rho, c.R0 with
    | some (mp, R), some R0 => .ok (some ⟨vecOf c.x + mp.CM, vecOf c.v, mp.M, R0 * R, vecOf c.omega, mp.I⟩)
    | _, _ => .ok none

/-- The states of all bodies, rigidbody3dutils/RigidBody3DSceneParser.cpp:282-478. `setState` stores them in the vectors of the state. -/
noncomputable def bodyStates3D (meshes : String → MeshMoments) (geometry : List Geometry3DElement) (l : List Body3DElement) : Outcome (List (Option BodyState3D)) :=
  mapNodes (bodyState3D meshes geometry) l

end Scisim
