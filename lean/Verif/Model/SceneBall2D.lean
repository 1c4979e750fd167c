import Verif.Model.SceneSolvers
import Verif.Model.ScenePortals
/-!
# Scene files of the simulation of balls

ball2dutils/Ball2DSceneParser.cpp. Objects are represented by the arguments of their constructors: the normal of a plane is not yet normalized.
-/

namespace Scisim

/-- An attribute whose text must be read, for `loadPlanarPortals` -/
def XmlNode.unsignedAttr (nd : XmlNode) (a : String) : XmlAttr ℕ :=
  match nd.attr a with
  | none => .missing
  | some t =>
    match extractUnsigned t.toList with
    | .value x _ => .value x
    | _ => .malformed

/-- Likewise for a number -/
def XmlNode.scalarAttr (nd : XmlNode) (a : String) : XmlAttr ℚ :=
  match nd.attr a with
  | none => .missing
  | some t =>
    match extractScalar t.toList with
    | .value x _ => .value x
    | _ => .malformed

/-- A `planar_portal` element: the two attributes read in ball2dutils/Ball2DSceneParser.cpp:391-430 -/
def XmlNode.portalNode (nd : XmlNode) : PortalNode := ⟨nd.unsignedAttr "planeA", nd.unsignedAttr "planeB"⟩

/-- A `lees_edwards_portal` element: the attributes read in ball2dutils/Ball2DSceneParser.cpp:461-556 -/
def XmlNode.leesEdwardsNode (nd : XmlNode) : LeesEdwardsNode ℚ := ⟨nd.portalNode, nd.scalarAttr "v", nd.scalarAttr "bounds"⟩

/-- `loadScriptingSetup`, ball2dutils/Ball2DSceneParser.cpp:218-239: the same in all three parsers -/
def loadScripting (root : XmlNode) : Outcome String :=
  match root.first "scripting" with
  | none => .ok ""
  | some nd => nd.require "callback"

/-- The end time, ball2dutils/Ball2DSceneParser.cpp:194-216 and 1502-1510; `none` is infinity -/
def loadEndTime (root : XmlNode) : Outcome (Option ℚ) :=
  match root.first "end_time" with
  | none => .ok none
  | some nd => do
    let t ← nd.scalar "t"
    failIf (t ≤ 0)
    .ok (some t)

/-- `Ball2DGravityForce` and `PenaltyForce` -/
inductive ForceElement where
  | gravity (fx fy : ℚ)
  | penalty (stiffness power : ℚ)
deriving DecidableEq

/-- The body of the loop of `loadGravityForce`, ball2dutils/Ball2DSceneParser.cpp:1430-1440 -/
def loadGravity (nd : XmlNode) : Outcome ForceElement := do
  let fx ← nd.scalarUnchecked "fx"
  let fy ← nd.scalarUnchecked "fy"
  .ok (.gravity fx fy)

/-- The body of the loop of `loadPenaltyForce`, ball2dutils/Ball2DSceneParser.cpp:1450-1480 -/
def loadPenalty (nd : XmlNode) : Outcome ForceElement := do
  let k ← nd.scalar "stiffness"
  failIf (k < 0)
  let p ← nd.scalar "potential_power"
  .ok (.penalty k p)

/-- `VerletMap` and `SymplecticEulerMap` -/
inductive BallIntegrator where
  | verlet
  | symplecticEuler
deriving DecidableEq

/-- The timestep, ball2dutils/Ball2DSceneParser.cpp:599-612: its text and its value -/
def loadDt (nd : XmlNode) : Outcome (String × Rat64) := do
  let t ← nd.require "dt"
  let dt ← extractRational t.toList
  failIf (!dt.positive)
  .ok (t, dt)

/-- `loadIntegrator`, ball2dutils/Ball2DSceneParser.cpp:587-640 -/
def loadBallIntegrator (root : XmlNode) : Outcome (String × Rat64 × BallIntegrator) := do
  let nd ← root.requireChild "integrator"
  let (t, dt) ← loadDt nd
  let type ← nd.require "type"
  if type = "verlet" then .ok (t, dt, .verlet)
  else if type = "symplectic_euler" then .ok (t, dt, .symplecticEuler)
  else .fail

/-- `StaticDrum` -/
structure DrumElement where
  x : ℚ
  y : ℚ
  r : ℚ
deriving DecidableEq

/-- The body of the loop of `loadStaticDrums`, ball2dutils/Ball2DSceneParser.cpp:295-312 -/
def loadDrum (nd : XmlNode) : Outcome DrumElement := do
  let x ← nd.scalarUnchecked "x"
  let y ← nd.scalarUnchecked "y"
  let r ← nd.scalarUnchecked "r"
  .ok ⟨x, y, r⟩

/-- `StaticPlane` -/
structure PlaneElement where
  x : ℚ × ℚ
  n : ℚ × ℚ
deriving DecidableEq

/-- Two numbers in one attribute, ball2dutils/Ball2DSceneParser.cpp:325-339 -/
def loadPair (nd : XmlNode) (a : String) : Outcome (ℚ × ℚ) := do
  let t ← nd.require a
  match components t.toList.length t.toList with
  | [x, y] => .ok (x, y)
  | _ => .fail

/-- The body of the loop of `loadStaticPlanes`, ball2dutils/Ball2DSceneParser.cpp:322-362 -/
def loadPlane (nd : XmlNode) : Outcome PlaneElement := do
  let x ← loadPair nd "x"
  let n ← loadPair nd "n"
  .ok ⟨x, n⟩

/-- `Ball2D`, ball2dutils/Ball2D.h -/
structure BallElement where
  x : ℚ
  y : ℚ
  vx : ℚ
  vy : ℚ
  m : ℚ
  r : ℚ
  fixed : Bool
deriving DecidableEq

/-- The body of the loop of `loadBalls`, ball2dutils/Ball2DSceneParser.cpp:245-285 -/
def loadBall (nd : XmlNode) : Outcome BallElement := do
  let x ← nd.scalarUnchecked "x"
  let y ← nd.scalarUnchecked "y"
  let vx ← nd.scalarUnchecked "vx"
  let vy ← nd.scalarUnchecked "vy"
  let m ← nd.scalarUnchecked "m"
  let r ← nd.scalarUnchecked "r"
  let fixed ← nd.flagUnchecked "fixed"
  .ok ⟨x, y, vx, vy, m, r, fixed⟩

/-- What `loadSimulationState` sets -/
structure BallScene where
  script : String
  endTime : Option ℚ
  forces : List ForceElement
  dtText : String
  dt : Rat64
  integrator : BallIntegrator
  solvers : SolverSetup
  drums : List DrumElement
  planes : List PlaneElement
  portals : List (LoadedPortal PlaneElement (ℚ × ℚ))
  q : List ℚ
  v : List ℚ
  m : List ℚ
  r : List ℚ
  fixed : List Bool
deriving DecidableEq

/-- `loadSimulationState`, ball2dutils/Ball2DSceneParser.cpp:1486-1651 -/
def loadBallScene (b : Build) (root : XmlNode) : Outcome BallScene := do
  let script ← loadScripting root
  let endTime ← loadEndTime root
  let gravity ← mapNodes loadGravity (root.all "gravity")
  let penalty ← mapNodes loadPenalty (root.all "penalty")
  let (dtText, dt, integrator) ← loadBallIntegrator root
  let solvers ← loadSolvers b .balls2D root
  let drums ← mapNodes loadDrum (root.all "static_drum")
  let planes ← mapNodes loadPlane (root.all "static_plane")
  let (planes, portals) ← loadPlanarPortals ballBadBounds planes ((root.all "planar_portal").map (·.portalNode)) ((root.all "lees_edwards_portal").map (·.leesEdwardsNode))
  let balls ← mapNodes loadBall (root.all "ball")
  .ok ⟨script, endTime, gravity ++ penalty, dtText, dt, integrator, solvers, drums, planes, portals, balls.flatMap fun c => [c.x, c.y],
    balls.flatMap fun c => [c.vx, c.vy], balls.flatMap fun c => [c.m, c.m], balls.map (·.r), balls.map (·.fixed)⟩

/-- `parseXMLSceneFile`, ball2dutils/Ball2DSceneParser.cpp:1653-1679; `doc` is the document -/
def parseBallScene (b : Build) (doc : XmlNode) : Outcome BallScene := do
  let root ← doc.requireChild "ball2d_scene"
  loadBallScene b root

/-- The settings of the camera -/
structure BallCamera where
  cx : ℚ
  cy : ℚ
  scale : ℚ
  fps : ℕ
  renderAtFps : Bool
  locked : Bool
deriving DecidableEq

/-- `loadCameraSettings`, ball2dutils/Ball2DSceneParser.cpp:101-192 -/
def loadBallCamera (nd : XmlNode) : Outcome BallCamera := do
  let cx ← nd.scalar "cx"
  let cy ← nd.scalar "cy"
  let scale ← nd.scalar "scale_factor"
  let fps ← nd.unsigned "fps"
  let render ← nd.flag "render_at_fps"
  let locked ← nd.flag "locked"
  .ok ⟨cx, cy, scale, fps, render, locked⟩

/-- The second `parseXMLSceneFile`, ball2dutils/Ball2DSceneParser.cpp:1681-1719; `none` if `camera_set` is `false` -/
def parseBallSceneAndCamera (b : Build) (doc : XmlNode) : Outcome (Option BallCamera × BallScene) := do
  let root ← doc.requireChild "ball2d_scene"
  let camera ← match root.first "camera" with
    | none => Outcome.ok none
    | some nd => loadBallCamera nd >>= fun c => .ok (some c)
  let s ← loadBallScene b root
  .ok (camera, s)

end Scisim
