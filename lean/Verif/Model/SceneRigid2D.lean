import Verif.Model.SceneBall2D
import Verif.Model.Geometry2D
/-!
# Scene files of the simulation of two dimensional rigid bodies

rigidbody2dutils/RigidBody2DSceneParser.cpp. Objects are represented by the arguments of their constructors: the normal of a plane is not yet normalized.
`loadScripting`, `loadEndTime`, `loadDt`, `loadPlanarPortals` and `loadSolvers` are shared with the other programs.
-/

namespace Scisim

/-- `x <= 0.0` for a number of a list -/
def ListScalar.nonpositive : ListScalar → Bool
  | .finite q => decide (q ≤ 0)
  | .inf negative => negative

/-- A list of two numbers, e.g. rigidbody2dutils/RigidBody2DSceneParser.cpp:244-254 -/
def loadPoint2 (nd : XmlNode) (a : String) : Outcome (ListScalar × ListScalar) :=
  nd.scalarList a 2 >>= fun l =>
    match l with
    | [x, y] => .ok (x, y)
    | _ => .fail

/-- `CameraSettings2D`, if set -/
structure Camera2D where
  center : ListScalar × ListScalar
  scale : ℚ
  fps : ℕ
  renderAtFps : Bool
  locked : Bool
deriving DecidableEq

/-- `loadCameraSettings`, rigidbody2dutils/RigidBody2DSceneParser.cpp:97-186 -/
def loadCamera2D (root : XmlNode) : Outcome (Option Camera2D) :=
  match root.first "camera" with
  | none => .ok none
  | some nd => do
    let c ← loadPoint2 nd "center"
    let scale ← nd.scalar "scale"
    failIf (scale ≤ 0)
    let fps ← nd.int "fps"
    failIf (fps ≤ 0)
    let render ← nd.flag "render_at_fps"
    let locked ← nd.flag "locked"
    .ok (some ⟨c, scale, fps.toNat, render, locked⟩)

/-- `loadIntegrator`, rigidbody2dutils/RigidBody2DSceneParser.cpp:506-560: without the element there is no integrator, and the timestep is 0 -/
def loadRigid2DIntegrator (root : XmlNode) : Outcome (String × Rat64 × Option BallIntegrator) :=
  match root.first "integrator" with
  | none => .ok ("0", ⟨0, 1⟩, none)
  | some nd => do
    let (t, dt) ← loadDt nd
    let type ← nd.require "type"
    if type = "symplectic_euler" then .ok (t, dt, some .symplecticEuler)
    else if type = "verlet" then .ok (t, dt, some .verlet)
    else .fail

/-- `RigidBody2DStaticPlane` -/
structure Plane2DElement where
  x : ListScalar × ListScalar
  n : ListScalar × ListScalar
deriving DecidableEq

/-- The body of the loop of `loadStaticPlanes`, rigidbody2dutils/RigidBody2DSceneParser.cpp:241-277. `n.norm() == 0.0` is exact here. -/
def loadPlane2D (nd : XmlNode) : Outcome Plane2DElement := do
  let x ← loadPoint2 nd "x"
  let n ← loadPoint2 nd "n"
  failIf (n = (.finite 0, .finite 0))
  .ok ⟨x, n⟩

/-- `CircleGeometry` and `BoxGeometry` -/
inductive Geometry2DElement where
  | circle (r : ℚ)
  | box (r : ListScalar × ListScalar)
deriving DecidableEq

/-- The body of the loop of `loadGeometry`, rigidbody2dutils/RigidBody2DSceneParser.cpp:1282-1335 -/
def loadGeometry2D (nd : XmlNode) : Outcome Geometry2DElement := do
  let type ← nd.require "type"
  if type = "circle" then do
    let r ← nd.scalar "r"
    failIf (r ≤ 0)
    .ok (.circle r)
  else if type = "box" then do
    let r ← loadPoint2 nd "r"
    failIf (r.1.nonpositive || r.2.nonpositive)
    .ok (.box r)
  else .fail

/-- What is read of one `rigid_body` element -/
structure Body2DElement where
  x : ListScalar × ListScalar
  theta : ℚ
  v : ListScalar × ListScalar
  omega : ℚ
  rho : ℚ
  geo : ℕ
  fixed : Bool
deriving DecidableEq

/-- The optional flag, rigidbody2dutils/RigidBody2DSceneParser.cpp:1454-1471 -/
def loadFixed (nd : XmlNode) : Outcome Bool :=
  match nd.attr "fixed" with
  | none => .ok false
  | some t => (extractBool t.toList).checked

/-- The body of the loop of `loadBodies`, rigidbody2dutils/RigidBody2DSceneParser.cpp:1350-1472; `ngeo` is `geometry.size()` -/
def loadBody2D (ngeo : ℕ) (nd : XmlNode) : Outcome Body2DElement := do
  let x ← loadPoint2 nd "x"
  let theta ← nd.scalar "theta"
  let v ← loadPoint2 nd "v"
  let omega ← nd.scalar "omega"
  let rho ← nd.scalar "rho"
  failIf (rho ≤ 0)
  let geo ← nd.int "geo_idx"
  failIf (geo < 0 || geo ≥ ngeo)
  let fixed ← loadFixed nd
  .ok ⟨x, theta, v, omega, rho, geo.toNat, fixed⟩

/-- `loadGravityForce`, the body of the loop, rigidbody2dutils/RigidBody2DSceneParser.cpp:1258-1273 -/
def loadNearEarthGravity2D (nd : XmlNode) : Outcome (ListScalar × ListScalar) := loadPoint2 nd "f"

/-- What `parseXMLSceneFile` sets. The masses are computed from the densities, see `massDiagonal2D`. -/
structure Rigid2DScene where
  script : String
  endTime : Option ℚ
  camera : Option Camera2D
  dtText : String
  dt : Rat64
  integrator : Option BallIntegrator
  solvers : SolverSetup
  forces : List (ListScalar × ListScalar)
  planes : List Plane2DElement
  portals : List (LoadedPortal Plane2DElement (ℚ × ℚ))
  geometry : List Geometry2DElement
  q : List ListScalar
  v : List ListScalar
  rho : List ℚ
  indices : List ℕ
  fixed : List Bool
deriving DecidableEq

/-- `RigidBody2DSceneParser::parseXMLSceneFile` from the root on, rigidbody2dutils/RigidBody2DSceneParser.cpp:1527-1653; the vectors `q` and `v` are built in 1476-1490 -/
def loadRigid2DScene (b : Build) (root : XmlNode) : Outcome Rigid2DScene := do
  let script ← loadScripting root
  let endTime ← loadEndTime root
  let camera ← loadCamera2D root
  let (dtText, dt, integrator) ← loadRigid2DIntegrator root
  let solvers ← loadSolvers b .rigidBody2D root
  let forces ← mapNodes loadNearEarthGravity2D (root.all "near_earth_gravity")
  let planes ← mapNodes loadPlane2D (root.all "static_plane")
  let (planes, portals) ← loadPlanarPortals rigidBadBounds planes ((root.all "planar_portal").map (·.portalNode)) ((root.all "lees_edwards_portal").map (·.leesEdwardsNode))
  let geometry ← mapNodes loadGeometry2D (root.all "geometry")
  let bodies ← mapNodes (loadBody2D geometry.length) (root.all "rigid_body")
  .ok ⟨script, endTime, camera, dtText, dt, integrator, solvers, forces, planes, portals, geometry, bodies.flatMap fun c => [c.x.1, c.x.2, .finite c.theta],
    bodies.flatMap fun c => [c.v.1, c.v.2, .finite c.omega], bodies.map (·.rho), bodies.map (·.geo), bodies.map (·.fixed)⟩

/-- `RigidBody2DSceneParser::parseXMLSceneFile`, rigidbody2dutils/RigidBody2DSceneParser.cpp:1509-1653; `doc` is the document -/
def parseRigid2DScene (b : Build) (doc : XmlNode) : Outcome Rigid2DScene := do
  let root ← doc.requireChild "rigidbody2d_scene"
  loadRigid2DScene b root

/-- `computeMassAndInertia` of the geometry, rigidbody2d/CircleGeometry.cpp:46-50 and rigidbody2d/BoxGeometry.cpp:44-48. `none` if a half width is infinite; these are not modelled. -/
noncomputable def Geometry2DElement.massAndInertia (g : Geometry2DElement) (rho : ℚ) : Option (ℝ × ℝ) :=
  match g with
  | .circle r => some (circleMassAndInertia r rho)
  | .box (.finite x, .finite y) => some (boxMassAndInertia ⟨x, y⟩ rho)
  | .box _ => none

/-- The diagonal of the mass matrix, rigidbody2dutils/RigidBody2DSceneParser.cpp:1495-1504. An index outside the geometry is undefined behaviour. -/
noncomputable def massDiagonal2D (geometry : List Geometry2DElement) : List (ℚ × ℕ) → Outcome (List (Option ℝ))
  | [] => .ok []
  | (rho, i) :: rest =>
    match geometry[i]? with
    | none => .ub
    | some g =>
      let mi := g.massAndInertia rho
      massDiagonal2D geometry rest >>= fun m => .ok (mi.map (·.1) :: mi.map (·.1) :: mi.map (·.2) :: m)

end Scisim
