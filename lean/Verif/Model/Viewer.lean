import Mathlib.Algebra.Order.Group.Abs
import Verif.Model.CLI
/-!
# The interactive programs

`ball2dqt4`, `rigidbody2dqt4` and `rigidbody3dqt4`: the part of `GLWidget.cpp` and `ContentWidget.cpp` that loads scenes, takes steps, resets, draws and
exports movies, as a machine that handles one user event at a time. The camera is in `Model/Camera.lean`.

* What a step computes is a `Program`, as for the command line programs, on a `World`: the state of the simulation, its constraint cache and what the Python
  interpreter remembers.
* Qt: a check box or spin box sends its signal exactly if its value changed; `grabFrameBuffer` returns what was painted last. Handling an event is not
  interrupted by other events (the file dialogs in fact keep the idle timer running).
* The scene parsers are in `Model/Scene*.lean`; here a scene file is what they return. Console output is not modelled. Saving an image succeeds.
-/

namespace Scisim.Viewer

/-- `m_sim` and the interpreter. `St` is `m_sim.state()`, `C` is `m_sim.m_constraint_cache`, `Mem` the memory of the Python interpreter. -/
structure World (St C Mem : Type) where
  state : St
  cache : C
  memory : Mem

/-- `fps`, `render_at_fps` and `locked` of a scene -/
structure Display where
  fps : UInt32
  renderAtFps : Bool
  locked : Bool
deriving DecidableEq

/-- What `parseXMLSceneFile` returns (the arguments at ball2dqt4/GLWidget.cpp:163, rigidbody2dqt4/GLWidget.cpp:250). `display` is `none` if the file has no camera and the
program then keeps its settings (`camera_set`, ball2dqt4/GLWidget.cpp:211-217); the other two programs then use defaults, so that it is always `some`. -/
structure Scene (St : Type) where
  state : St
  integrator : Integrator
  dtNum : Int64
  dtDen : Int64
  endTime : F64
  impactOp : ImpactOp
  cor : F64
  impactMap : ImpactMapCfg
  frictionSolver : FrictionSolver
  mu : F64
  impactFrictionMap : ImpactFrictionMapCfg
  scriptPath : Bytes
  scriptModule : Bytes
  display : Option Display

/-- `resetCachedData`: GeometricImpactFrictionMap.cpp:444-447, StabilizedImpactFrictionMap.cpp:185-188, SymplecticEulerImpactFrictionMap.cpp:409-412; called if
there is a map, ball2dqt4/GLWidget.cpp:387-390 -/
def resetCachedData : ImpactFrictionMapCfg → ImpactFrictionMapCfg
  | .null => .null
  | .geometric _ tol n c => .geometric [] tol n c
  | .stabilized _ tol n a b => .stabilized [] tol n a b
  | .symplecticEuler _ tol n s p c => .symplecticEuler [] tol n s p c

/-- The three programs. The numbers `measure` are the energy, momentum and angular momentum shown in the heads up display. -/
structure Frontend (St C Mem S : Type) (k : Nat) where
  program : Program (World St C Mem)
  /-- an empty constraint cache -/
  noCache : C
  /-- whether `openScene` calls `m_sim.clearConstraintCache()`: ball2dqt4/GLWidget.cpp:199 and rigidbody3dqt4/GLWidget.cpp:195 do, rigidbody2dqt4/GLWidget.cpp:286-289 does not -/
  clearsCache : Bool
  /-- whether `GLWidget::openScene` forgets the movie directory: ball2dqt4/GLWidget.cpp:258-260 only -/
  openClearsMovie : Bool
  /-- whether `resetSystem` ends the movie: ball2dqt4/GLWidget.cpp:403-406 and ContentWidget.cpp:96-102, likewise rigidbody2dqt4; not rigidbody3dqt4 -/
  resetEndsMovie : Bool
  /-- whether `resetSystem` makes new colours and renderers: ball2dqt4/GLWidget.cpp:408-426, rigidbody2dqt4/GLWidget.cpp:473-474; not rigidbody3dqt4 -/
  resetRecolours : Bool
  /-- whether a step makes new colours and renderers when their number has changed: ball2dqt4/GLWidget.cpp:341-366, rigidbody2dqt4/GLWidget.cpp:413-424; not
  rigidbody3dqt4 -/
  stepRecolours : Bool
  /-- the value of the spin box in the constructor: 50, and 60 in rigidbody3dqt4/ContentWidget.cpp:57 -/
  initialFps : UInt32
  /-- `PythonScripting( path, name )`: (re)loads the module -/
  loadModule : (path name : Bytes) → Mem → Outcome Mem
  /-- `startOfSimCallback`; in three dimensions it may change the iteration, rigidbody3dqt4/GLWidget.cpp:319-322 -/
  startOfSim : (module : Bytes) → World St C Mem → UInt32 → Outcome (World St C Mem × UInt32)
  /-- `endOfSimCallback` -/
  endOfSim : (module : Bytes) → World St C Mem → Outcome (World St C Mem)
  measure : St → Fin k → S
  bodies : St → Nat
  /-- the geometry objects of the state, by identity; empty for balls -/
  shapes : St → List Nat
  /-- the geometry index of each body -/
  shapeOf : St → List Nat
  /-- some geometry is a box -/
  hasBox : St → Bool

/-- The contents of the frame buffer: the state that was drawn, the geometry used for each body, and the heads up display, if shown: iteration and largest changes. -/
structure Picture (St S : Type) (k : Nat) where
  state : St
  drawn : List Nat
  hud : Option (UInt32 × (Fin k → S))

/-- The members of `GLWidget` and `ContentWidget`, and what the program did -/
structure Gui (St C Mem S : Type) (k : Nat) where
  /-- `m_sim`, `m_iteration`, `m_dt`, the maps, `m_CoR`, `m_mu`, `m_scripting` -/
  input : StepInput (World St C Mem)
  /-- `m_end_time` -/
  endTime : F64
  /-- `m_sim0` -/
  sim0 : St × C
  /-- `m_H0`, `m_p0`, `m_L0` -/
  measure0 : Fin k → S
  /-- `m_delta_H0`, `m_delta_p0`, `m_delta_L0` -/
  drift : Fin k → S
  /-- `m_render_at_fps` -/
  renderAtFps : Bool
  /-- `m_lock_camera` -/
  lock : Bool
  /-- `m_display_HUD` -/
  hud : Bool
  /-- `m_movie_dir_name` -/
  movieDir : Bytes
  /-- `m_output_frame` -/
  outputFrame : UInt32
  /-- `m_output_fps` -/
  fps : UInt32
  /-- `m_steps_per_frame` -/
  stepsPerFrame : UInt32
  /-- the number of colours in `m_ball_colors`, `m_body_colors` -/
  colors : Nat
  /-- `m_body_renderers`: the geometry each refers to -/
  renderers : List Nat
  /-- the frame buffer -/
  buffer : Option (Picture St S k)
  /-- images saved, in order -/
  files : List (Bytes × Option (Picture St S k))
  /-- `m_simulate_checkbox`, and whether `m_idle_timer` runs -/
  simulate : Bool
  /-- `m_render_at_fps_checkbox` -/
  renderBox : Bool
  /-- `m_lock_camera_button` -/
  lockBox : Bool
  /-- `m_export_movie_checkbox` -/
  movieBox : Bool
  /-- `m_fps_spin_box` -/
  spin : UInt32
  /-- `m_xml_file_name` -/
  sceneName : Bytes
  /-- the program ended by itself, `std::exit( EXIT_SUCCESS )` -/
  finished : Bool

section
variable {St C Mem S : Type} {k : Nat}

/-- `updateGL`, that is `paintGL`: ball2dqt4/GLWidget.cpp:449-470, 900-925, rigidbody2dqt4/GLWidget.cpp:499-519, 930-958. Reading a colour or renderer that is not there,
or through a renderer whose geometry was deleted, is undefined. -/
def paint (v : Frontend St C Mem S k) (g : Gui St C Mem S k) : Outcome (Gui St C Mem S k) :=
  let s := g.input.sim.state
  if v.bodies s ≤ g.colors ∧ (∀ i ∈ v.shapeOf s, ∃ r ∈ g.renderers[i]?, r ∈ v.shapes s) then
    .ok { g with buffer := some ⟨s, (v.shapeOf s).map fun i => g.renderers.getD i 0, if g.hud then some (g.input.iteration, g.drift) else none⟩ }
  else .ub

/-- `saveScreenshot`, ball2dqt4/GLWidget.cpp:585-590 -/
def saveScreenshot (file : Bytes) (g : Gui St C Mem S k) : Gui St C Mem S k :=
  { g with files := g.files ++ [(file, g.buffer)] }

/-- `m_movie_dir.filePath( tr( "frame%1.png" ).arg( m_output_frame, 10, 10, '0' ) )`, ball2dqt4/GLWidget.cpp:379-380 -/
def frameName (dir : Bytes) (n : UInt32) : Bytes := dir ++ ascii "/frame" ++ padded 10 n.toNat ++ ascii ".png"

/-- ball2dqt4/GLWidget.cpp:379-381 and 603-605 -/
def saveFrame (g : Gui St C Mem S k) : Gui St C Mem S k :=
  { saveScreenshot (frameName g.movieDir g.outputFrame) g with outputFrame := g.outputFrame + 1 }

/-- `setMovieDir`, ball2dqt4/GLWidget.cpp:592-607 -/
def setMovieDir (dir : Bytes) (g : Gui St C Mem S k) : Gui St C Mem S k :=
  let g := { g with movieDir := dir, outputFrame := 0 }
  if dir ≠ [] then saveFrame g else g

/-- ball2dqt4/GLWidget.cpp:614-634. The comparison `1.0 < scalar( … )` is exact; denominators are positive. -/
def stepsPerFrameOf (dt : Rat64) (fps : Nat) : Outcome UInt32 :=
  (Rat64.mulInt dt fps).bind fun d =>
    if d.den < d.num then .ok 1
    else (Rat64.intDiv 1 d).bind fun r => if r.isInteger then .ok (UInt32.ofInt r.num) else .ok 1

/-- `setMovieFPS`, ball2dqt4/GLWidget.cpp:609-635 -/
def setMovieFps (fps : UInt32) (g : Gui St C Mem S k) : Outcome (Gui St C Mem S k) :=
  (stepsPerFrameOf ⟨g.input.dtNum.toInt, g.input.dtDen.toInt⟩ fps.toNat).bind fun n =>
    .ok { g with fps := fps, outputFrame := 0, stepsPerFrame := n }

/-- The new colours and renderers of `openScene` and `resetSystem`: ball2dqt4/GLWidget.cpp:235-256, rigidbody2dqt4/GLWidget.cpp:305-306 -/
def recolour (v : Frontend St C Mem S k) (g : Gui St C Mem S k) : Gui St C Mem S k :=
  { g with colors := v.bodies g.input.sim.state, renderers := v.shapes g.input.sim.state }

variable [AddCommGroup S] [LinearOrder S]

/-- `setState( … ); startOfSimCallback(); forgetState()`, ball2dqt4/GLWidget.cpp:277-280 and rigidbody3dqt4/GLWidget.cpp:318-322 -/
def startCallback (v : Frontend St C Mem S k) (g : Gui St C Mem S k) : Outcome (Gui St C Mem S k) :=
  (v.startOfSim g.input.scriptModule g.input.sim g.input.iteration).bind fun r => .ok { g with input := { g.input with sim := r.1, iteration := r.2 } }

/-- `GLWidget::openScene` of a scene that was parsed: ball2dqt4/GLWidget.cpp:176-288, rigidbody2dqt4/GLWidget.cpp:263-357, rigidbody3dqt4/GLWidget.cpp:167-330. The camera is
not part of this. -/
def openWidget (v : Frontend St C Mem S k) (s : Scene St) (render : Bool) (g : Gui St C Mem S k) : Outcome (Gui St C Mem S k) :=
  (v.loadModule s.scriptPath s.scriptModule g.input.sim.memory).bind fun mem =>
    let cache := if v.clearsCache then v.noCache else g.input.sim.cache
    let g := { g with
      input := ⟨⟨s.state, cache, mem⟩, 0, s.integrator, s.dtNum, s.dtDen, s.impactOp, s.cor, s.frictionSolver, s.mu, s.impactMap, s.impactFrictionMap, s.scriptPath,
        s.scriptModule⟩
      endTime := s.endTime, sim0 := (s.state, cache), measure0 := v.measure s.state, drift := fun _ => 0
      fps := (s.display.map Display.fps).getD g.fps, renderAtFps := (s.display.map Display.renderAtFps).getD g.renderAtFps
      lock := (s.display.map Display.locked).getD g.lock, movieDir := if v.openClearsMovie then [] else g.movieDir }
    (setMovieFps g.fps (recolour v g)).bind fun g =>
    (startCallback v g).bind fun g =>
    if render then paint v g else .ok g

/-- Which `flow` is called -/
inductive Kind where
  | nothing
  | free
  | impact
  | friction
  | impossible
deriving DecidableEq

/-- ball2dqt4/GLWidget.cpp:304-324, rigidbody2dqt4/GLWidget.cpp:378-398 and, without the tests for the impact map and most of those for the impact-friction map,
rigidbody3dqt4/GLWidget.cpp:418-438. `testsAllMaps` is `hasImpactMap` of the program: in three dimensions the impact map is a member of the simulation. -/
def kindOf {Sim : Type} (testsAllMaps : Bool) (i : StepInput Sim) : Kind :=
  if i.integrator = .null ∧ i.impactOp = .null ∧ i.frictionSolver = .null ∧ (testsAllMaps = true → i.impactMap = .null ∧ i.impactFrictionMap = .null) then .nothing
  else if i.integrator ≠ .null ∧ i.impactOp = .null ∧ i.frictionSolver = .null ∧ (testsAllMaps = true → i.impactMap = .null ∧ i.impactFrictionMap = .null) then .free
  else if i.integrator ≠ .null ∧ i.impactOp ≠ .null ∧ i.frictionSolver = .null ∧ (testsAllMaps = true → i.impactMap ≠ .null ∧ i.impactFrictionMap = .null) then .impact
  else if i.integrator ≠ .null ∧ i.impactOp = .null ∧ i.frictionSolver ≠ .null ∧ (testsAllMaps = true → i.impactMap = .null) ∧ i.impactFrictionMap ≠ .null then .friction
  else .impossible

/-- The calls of `m_sim.flow`, ball2dqt4/GLWidget.cpp:308-329 -/
def runKind {Sim : Type} (p : Program Sim) (i : StepInput Sim) : Kind → Outcome (Sim × ImpactFrictionMapCfg)
  | .nothing => .ok (i.sim, i.impactFrictionMap)
  | .free => (p.flowFree i).bind fun s => .ok (s, i.impactFrictionMap)
  | .impact => (p.flowImpact i).bind fun s => .ok (s, i.impactFrictionMap)
  | .friction => p.flowFriction i
  | .impossible => .exit

/-- Colours and renderers after a step: ball2dqt4/GLWidget.cpp:341-366; rigidbody2dqt4/GLWidget.cpp:413-424 and 95-121 (`updateRenderers` cannot handle boxes) -/
def refresh (v : Frontend St C Mem S k) (g : Gui St C Mem S k) : Outcome (Gui St C Mem S k) :=
  if v.stepRecolours then
    let g := { g with colors := v.bodies g.input.sim.state }
    if g.renderers.length ≠ (v.shapes g.input.sim.state).length then
      if v.hasBox g.input.sim.state then .exit else .ok { g with renderers := v.shapes g.input.sim.state }
    else .ok g
  else .ok g

/-- `m_iteration % m_steps_per_frame == 0`, undefined for no steps per frame -/
def onFrame (g : Gui St C Mem S k) : Outcome Bool :=
  if g.stepsPerFrame = 0 then .ub else .ok (g.input.iteration % g.stepsPerFrame == 0)

/-- The end of `stepSystem`: ball2dqt4/GLWidget.cpp:368-383 -/
def show_ (v : Frontend St C Mem S k) (g : Gui St C Mem S k) : Outcome (Gui St C Mem S k) :=
  (if g.renderAtFps then (onFrame g).bind fun b => if b then paint v g else .ok g else paint v g).bind fun g =>
  if g.movieDir ≠ [] then (onFrame g).bind fun b => .ok (if b then saveFrame g else g) else .ok g

/-- `GLWidget::stepSystem`: ball2dqt4/GLWidget.cpp:291-383, rigidbody2dqt4/GLWidget.cpp:363-442, rigidbody3dqt4/GLWidget.cpp:404-479 -/
def step (v : Frontend St C Mem S k) (g : Gui St C Mem S k) : Outcome (Gui St C Mem S k) :=
  if v.program.reached g.input.dtNum g.input.dtDen g.endTime g.input.iteration then
    (v.endOfSim g.input.scriptModule g.input.sim).bind fun w => .ok { g with input := { g.input with sim := w }, finished := true }
  else if kindOf v.program.format.hasImpactMap g.input = .nothing then .ok g
  else
    (runKind v.program g.input (kindOf v.program.format.hasImpactMap g.input)).bind fun r =>
      let g := { g with input := { g.input with sim := r.1, impactFrictionMap := r.2, iteration := g.input.iteration + 1 } }
      let g := { g with drift := fun i => max (g.drift i) |g.measure0 i - v.measure g.input.sim.state i| }
      (refresh v g).bind (show_ v)

/-- `GLWidget::resetSystem`: ball2dqt4/GLWidget.cpp:385-434, rigidbody2dqt4/GLWidget.cpp:444-482, rigidbody3dqt4/GLWidget.cpp:481-505 -/
def resetWidget (v : Frontend St C Mem S k) (g : Gui St C Mem S k) : Outcome (Gui St C Mem S k) :=
  let g := { g with
    input := { g.input with sim := ⟨g.sim0.1, g.sim0.2, g.input.sim.memory⟩, impactFrictionMap := resetCachedData g.input.impactFrictionMap, iteration := 0 }
    measure0 := v.measure g.sim0.1, drift := fun _ => 0 }
  let g := if v.resetEndsMovie then { g with movieDir := [], outputFrame := 0 } else g
  let g := if v.resetRecolours then recolour v g else g
  (startCallback v g).bind (paint v)

/-! ## `ContentWidget` -/

/-- `m_export_movie_checkbox->setChecked( false )`: `exportMovieToggled( false )` if it was checked, ball2dqt4/ContentWidget.cpp:84-88 and 214-217 -/
def uncheckMovie (g : Gui St C Mem S k) : Gui St C Mem S k :=
  if g.movieBox then setMovieDir [] { g with movieBox := false } else g

/-- `m_export_movie_checkbox->setChecked( true )` on an unchecked box, and the directory the user then chooses: ball2dqt4/ContentWidget.cpp:195-213. No choice unchecks
the box. -/
def checkMovie (dir : Bytes) (g : Gui St C Mem S k) : Gui St C Mem S k :=
  if dir ≠ [] then setMovieDir dir { g with movieBox := true } else uncheckMovie { g with movieBox := true }

/-- `m_fps_spin_box->setValue`: the range is 1 to 1000 (ball2dqt4/ContentWidget.cpp:57); `movieFPSChanged`, 256-259, if the value changed -/
def setSpin (n : UInt32) (g : Gui St C Mem S k) : Outcome (Gui St C Mem S k) :=
  let n := max 1 (min 1000 n)
  if n = g.spin then .ok g else setMovieFps n { g with spin := n }

/-- `m_render_at_fps_checkbox->setCheckState` and `renderAtFPSToggled`, ball2dqt4/ContentWidget.cpp:182-186 -/
def setRender (b : Bool) (g : Gui St C Mem S k) : Gui St C Mem S k :=
  if b = g.renderBox then g else { g with renderBox := b, renderAtFps := b }

/-- `m_lock_camera_button->setCheckState` and `lockCameraToggled`, ball2dqt4/ContentWidget.cpp:188-192 -/
def setLock (b : Bool) (g : Gui St C Mem S k) : Gui St C Mem S k :=
  if b = g.lockBox then g else { g with lockBox := b, lock := b }

/-- A file on disk: missing, not a scene, or a scene -/
inductive File (St : Type) where
  | missing
  | refused
  | scene (s : Scene St)

/-- `ContentWidget::openScene`, ball2dqt4/ContentWidget.cpp:115-157 -/
def openScene (v : Frontend St C Mem S k) (name : Bytes) (file : File St) (render : Bool) (g : Gui St C Mem S k) : Outcome (Gui St C Mem S k) :=
  match file with
  | .missing => .ok g
  | .refused => .ok g
  | .scene s =>
    (openWidget v s render g).bind fun g =>
      let fps := g.fps
      let render := g.renderAtFps
      let lock := g.lock
      (setSpin fps { g with simulate := false }).bind fun g =>
        .ok (uncheckMovie { setLock lock (setRender render g) with sceneName := name })

/-- What the user, the timer and the window system do -/
inductive Input (St : Type) where
  /-- the Step button, or the key S -/
  | step
  /-- the idle timer fires, if it runs -/
  | idle
  /-- the Simulate box, or the space key -/
  | toggleSimulate
  /-- the Reset button, or the key R -/
  | reset
  /-- Open, with the file chosen -/
  | openFile (name : Bytes) (file : File St)
  /-- Reload, with what is now in the file -/
  | reload (file : File St)
  | toggleRender
  | toggleLock
  | setFps (n : UInt32)
  /-- the Export Movie box, with the directory chosen if it was unchecked -/
  | toggleMovie (dir : Bytes)
  /-- the Export Movie menu item -/
  | exportMovie (dir : Bytes)
  /-- the Export Image menu item; no file name if the dialog was cancelled -/
  | exportImage (file : Bytes)
  | toggleHud
  /-- the window system asks for a new picture -/
  | expose

/-- ball2dqt4/ContentWidget.cpp:90-180 and 195-270, Window.cpp:86-101 -/
def handle (v : Frontend St C Mem S k) (e : Input St) (g : Gui St C Mem S k) : Outcome (Gui St C Mem S k) :=
  if g.finished then .ok g
  else match e with
  | .step => step v g
  | .idle => if g.simulate then step v g else .ok g
  | .toggleSimulate => .ok { g with simulate := !g.simulate }
  | .reset => (resetWidget v g).bind fun g => .ok (if v.resetEndsMovie then uncheckMovie g else g)
  | .openFile name file => openScene v name file true g
  | .reload file => if g.sceneName = [] then .ok g else openScene v g.sceneName file true g
  | .toggleRender => .ok (setRender (!g.renderBox) g)
  | .toggleLock => .ok (setLock (!g.lockBox) g)
  | .setFps n => setSpin n g
  | .toggleMovie dir => .ok (if g.movieBox then uncheckMovie g else checkMovie dir g)
  | .exportMovie dir => .ok (checkMovie dir (uncheckMovie g))
  | .exportImage file => .ok (if file ≠ [] then saveScreenshot file g else g)
  | .toggleHud => paint v { g with hud := !g.hud }
  | .expose => paint v g

/-- A sequence of events -/
def runEvents (v : Frontend St C Mem S k) : List (Input St) → Gui St C Mem S k → Outcome (Gui St C Mem S k)
  | [], g => .ok g
  | e :: es, g => (handle v e g).bind (runEvents v es)

/-- The constructors, ball2dqt4/GLWidget.cpp:61-98 and ContentWidget.cpp:8-71 without a scene: `setMovieFPS` for a time step of 0/1 gives one step per frame. `state` and
`measure` are those of the empty state. -/
def start (v : Frontend St C Mem S k) (state : St) (mem : Mem) (endTime nan : F64) : Gui St C Mem S k where
  input := ⟨⟨state, v.noCache, mem⟩, 0, .null, 0, 1, .null, nan, .null, nan, .null, .null, [], []⟩
  endTime := endTime
  sim0 := (state, v.noCache)
  measure0 := v.measure state
  drift := fun _ => 0
  renderAtFps := false
  lock := false
  hud := true
  movieDir := []
  outputFrame := 0
  fps := v.initialFps
  stepsPerFrame := 1
  colors := 0
  renderers := []
  buffer := none
  files := []
  simulate := false
  renderBox := false
  lockBox := false
  movieBox := false
  spin := v.initialFps
  sceneName := []
  finished := false

/-- The constructor with a scene on the command line, ball2dqt4/ContentWidget.cpp:67-70 -/
def startWith (v : Frontend St C Mem S k) (state : St) (mem : Mem) (endTime nan : F64) (name : Bytes) (file : File St) : Outcome (Gui St C Mem S k) :=
  openScene v name file false (start v state mem endTime nan)

end

end Scisim.Viewer
