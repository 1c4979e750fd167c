import Mathlib.Order.Bounds.Basic
import Verif.Model.Viewer
import Verif.Spec.CLI
/-!
# What the user of an interactive program expects

In terms of the events and of `trajectory`, which is also what the command line programs compute.
-/

namespace Scisim.Viewer

section
variable {St C Mem S : Type} {k : Nat}

/-- The first step of a scene is taken from here; `w` is the simulation after the script's start function and `it` the number of steps it says were taken (0 in two
dimensions). -/
def Scene.begin (s : Scene St) (w : World St C Mem) (it : UInt32) : StepInput (World St C Mem) :=
  ⟨w, it, s.integrator, s.dtNum, s.dtDen, s.impactOp, s.cor, s.frictionSolver, s.mu, s.impactMap, s.impactFrictionMap, s.scriptPath, s.scriptModule⟩

/-- A history as the user sees it: the scene opened last, how many steps they took since they opened or reset it, whether Simulate is on, and how many scenes they
opened. -/
structure Session (St : Type) where
  scene : Option (Scene St)
  steps : Nat
  simulating : Bool
  opened : Nat

def Session.opens (u : Session St) : File St → Session St
  | .scene s => ⟨some s, 0, false, u.opened + 1⟩
  | _ => u

def Session.stepped (u : Session St) : Session St := { u with steps := u.steps + 1 }

/-- The history after one more event -/
def Session.next (u : Session St) : Input St → Session St
  | .step => u.stepped
  | .idle => if u.simulating then u.stepped else u
  | .toggleSimulate => { u with simulating := !u.simulating }
  | .reset => { u with steps := 0 }
  | .openFile _ f => u.opens f
  | .reload f => if u.scene.isSome then u.opens f else u
  | _ => u

/-- The history of a program started with `file` (missing if it was started without a scene) -/
def history (file : File St) (es : List (Input St)) : Session St := es.foldl Session.next (Session.opens ⟨none, 0, false, 0⟩ file)

/-- A combination of solvers the programs run: no contacts, impacts, or impacts and friction (the assertion at ball2dqt4/GLWidget.cpp:171-174), in a program whose
simulation has the impact map as a part of the scene (`hasImpactMap`, two dimensions) or not; and an impact-friction map with no forces from earlier steps. -/
structure Complete (hasImpactMap : Bool) (integrator : Integrator) (impactOp : ImpactOp) (impactMap : ImpactMapCfg) (frictionSolver : FrictionSolver)
    (ifm : ImpactFrictionMapCfg) : Prop where
  integrator : integrator ≠ .null
  solvers : (impactOp = .null ∧ impactMap = .null ∧ frictionSolver = .null ∧ ifm = .null) ∨
    (impactOp ≠ .null ∧ (impactMap ≠ .null ↔ hasImpactMap = true) ∧ frictionSolver = .null ∧ ifm = .null) ∨
    (impactOp = .null ∧ impactMap = .null ∧ frictionSolver ≠ .null ∧ ifm ≠ .null)

def Scene.Complete (p : Program (World St C Mem)) (s : Scene St) : Prop :=
  Viewer.Complete p.format.hasImpactMap s.integrator s.impactOp s.impactMap s.frictionSolver s.impactFrictionMap ∧
    resetCachedData s.impactFrictionMap = s.impactFrictionMap

/-- What is in a scene file is a complete scene, and only files with a name can be opened. -/
def Input.Sane (p : Program (World St C Mem)) : Input St → Prop
  | .openFile name (.scene s) => name ≠ [] ∧ s.Complete p
  | .reload (.scene s) => s.Complete p
  | _ => True

/-- A step changes the stored forces of the impact-friction map, not its settings. -/
def KeepsSettings {Sim : Type} (p : Program Sim) : Prop :=
  ∀ i s m, p.flowFriction i = .ok (s, m) → resetCachedData m = resetCachedData i.impactFrictionMap

/-- Equal except for what the interpreter remembers -/
def World.Same (a b : World St C Mem) : Prop := a.state = b.state ∧ a.cache = b.cache

def SameInput (i j : StepInput (World St C Mem)) : Prop := i.sim.Same j.sim ∧ { i with sim := j.sim } = j

/-- What the script does to the simulation does not depend on what the interpreter remembers. -/
structure Forgetful (v : Frontend St C Mem S k) : Prop where
  start : ∀ m a b it r r', World.Same a b → v.startOfSim m a it = .ok r → v.startOfSim m b it = .ok r' → World.Same r.1 r'.1 ∧ r.2 = r'.2
  step : ∀ i j r r', SameInput i j → flowStep v.program i = .ok r → flowStep v.program j = .ok r' → World.Same r.1 r'.1 ∧ r.2 = r'.2

/-- Without a script nothing happens at the start (scisim/ScriptingCallback.cpp:41-46). -/
def NoScript (v : Frontend St C Mem S k) : Prop := ∀ w it, v.startOfSim [] w it = .ok (w, it)

/-- The largest changes since the beginning: of no step, or of some step from the first to the `n`-th -/
def Changes [AddCommGroup S] [LinearOrder S] (v : Frontend St C Mem S k) (begin_ : StepInput (World St C Mem)) (state0 : St) (n : Nat) (i : Fin k) : Set S :=
  {d | d = 0 ∨ ∃ j x, 1 ≤ j ∧ j ≤ n ∧ trajectory v.program begin_ j = .ok x ∧ d = |v.measure state0 i - v.measure x.sim.state i|}

/-- Events that leave the scene, the frame rate and the movie alone -/
def Input.Quiet : Input St → Prop
  | .step | .idle | .toggleSimulate | .toggleRender | .toggleLock | .toggleHud | .expose => True
  | _ => False

/-- A picture of a state, labelled with its iteration if there is a label -/
def Picture.Shows (p : Picture St S k) (i : StepInput (World St C Mem)) : Prop :=
  p.state = i.sim.state ∧ ∀ h ∈ p.hud, h.1 = i.iteration

/-- The controls show the settings in force. -/
structure Consistent (g : Gui St C Mem S k) : Prop where
  render : g.renderBox = g.renderAtFps
  lock : g.lockBox = g.lock
  movie : g.movieBox = true ↔ g.movieDir ≠ []
  fps : g.spin = g.fps
  range : 1 ≤ g.spin ∧ g.spin ≤ 1000

/-- The frame rate in the scene, if there is one, is one that can be set by hand. -/
def Scene.FpsInRange (s : Scene St) : Prop := ∀ d ∈ s.display, 1 ≤ d.fps ∧ d.fps ≤ 1000

def File.FpsInRange : File St → Prop
  | .scene s => s.FpsInRange
  | _ => True

def Input.FpsInRange : Input St → Prop
  | .openFile _ f => f.FpsInRange
  | .reload f => f.FpsInRange
  | _ => True

/-- The number of steps between frames is the one for the time step and frame rate (see `C77_rate`). -/
def Paced (g : Gui St C Mem S k) : Prop := stepsPerFrameOf ⟨g.input.dtNum.toInt, g.input.dtDen.toInt⟩ g.fps.toNat = .ok g.stepsPerFrame

/-- The screen shows the current state, every body with its own geometry, and (if it is on) the current time and changes. -/
def Current (v : Frontend St C Mem S k) (g : Gui St C Mem S k) : Prop :=
  ∃ p, g.buffer = some p ∧ p.state = g.input.sim.state ∧ p.drawn = (v.shapeOf p.state).map (fun i => (v.shapes p.state).getD i 0) ∧
    p.hud = if g.hud then some (g.input.iteration, g.drift) else none

/-- Every body refers to a geometry. -/
def WellFormed (v : Frontend St C Mem S k) (s : St) : Prop := ∀ i ∈ v.shapeOf s, i < (v.shapes s).length

def File.WellFormed (v : Frontend St C Mem S k) : File St → Prop
  | .scene s => Viewer.WellFormed v s.state
  | _ => True

def Input.WellFormed (v : Frontend St C Mem S k) : Input St → Prop
  | .openFile _ f => f.WellFormed v
  | .reload f => f.WellFormed v
  | _ => True

/-- The script leaves the bodies as they are, except that during a step of a two-dimensional program it may insert and delete some, with new geometry (no boxes) if the number of
geometries changes. -/
structure Tame (v : Frontend St C Mem S k) : Prop where
  start : ∀ m w it r, v.startOfSim m w it = .ok r → WellFormed v w.state →
    WellFormed v r.1.state ∧ v.bodies r.1.state ≤ v.bodies w.state ∧ v.shapes r.1.state = v.shapes w.state
  step : ∀ i r, flowStep v.program i = .ok r → WellFormed v i.sim.state →
    WellFormed v r.1.state ∧ (v.bodies r.1.state ≤ v.bodies i.sim.state ∨ v.stepRecolours = true) ∧
    (v.shapes r.1.state = v.shapes i.sim.state ∨
      (v.stepRecolours = true ∧ (v.shapes i.sim.state).length ≠ (v.shapes r.1.state).length ∧ v.hasBox r.1.state = false))
  reset : v.stepRecolours = true → v.resetRecolours = true

/-- Neither the simulation nor the script does something undefined. -/
structure Sound (v : Frontend St C Mem S k) : Prop where
  free : ∀ i, v.program.flowFree i ≠ .ub
  impact : ∀ i, v.program.flowImpact i ≠ .ub
  friction : ∀ i, v.program.flowFriction i ≠ .ub
  load : ∀ p m mem, v.loadModule p m mem ≠ .ub
  start : ∀ m w it, v.startOfSim m w it ≠ .ub
  finish : ∀ m w, v.endOfSim m w ≠ .ub

/-- A positive time step that is not astronomically large, with less than 2³² steps per second of simulated time -/
def Usual (dtNum dtDen : Int64) : Prop := 0 < dtNum.toInt ∧ dtNum.toInt * 1000 < 9223372036854775808 ∧ 0 < dtDen.toInt ∧ dtDen.toInt < 4294967296

def File.Usual : File St → Prop
  | .scene s => Viewer.Usual s.dtNum s.dtDen
  | _ => True

def Input.Usual : Input St → Prop
  | .openFile _ f => f.Usual
  | .reload f => f.Usual
  | _ => True

end

end Scisim.Viewer
