import Verif.Model.Snapshot
import Verif.Model.Rational
/-!
# The command line programs' main loop

The globals of `ball2dcli/ball2d_cli.cpp` (`g_sim`, `g_iteration`, …) are exactly the fields of `Snapshot`.  What a step computes is
abstract: any function of what `stepSystem` passes to `flow`.  (Python callbacks are part of it: they are assumed to keep no
state of their own between steps.)  Console output is not modelled; file writes succeed unless the process dies (see the crash
model at the end).
-/

namespace Scisim

/-- What `stepSystem` hands to the simulation (ball2dcli/ball2d_cli.cpp:381-429): the simulation, the iteration, the
time step, the solvers and their parameters, and the scripting. -/
structure StepInput (Sim : Type) where
  sim : Sim
  iteration : UInt32
  integrator : Integrator
  dtNum : Int64
  dtDen : Int64
  impactOp : ImpactOp
  cor : F64
  frictionSolver : FrictionSolver
  mu : F64
  impactMap : ImpactMapCfg
  impactFrictionMap : ImpactFrictionMapCfg
  scriptPath : Bytes
  scriptModule : Bytes

def Snapshot.input {Sim : Type} (g : Snapshot Sim) : StepInput Sim :=
  ⟨g.sim, g.iteration, g.integrator, g.dtNum, g.dtDen, g.impactOp, g.cor, g.frictionSolver, g.mu, g.impactMap,
    g.impactFrictionMap, g.scriptPath, g.scriptModule⟩

/-- A program: how it saves and loads, what a step does and when the end time is reached. The three `flow`s are the three
`g_sim.flow` overloads; `flowFriction` also updates the persistent part of the impact-friction map. `reached` is the test
`g_iteration * scalar( g_dt ) >= g_end_time` as a function of its operands. -/
structure Program (Sim : Type) where
  format : Format Sim
  git : Bytes
  build : Build
  useHdf5 : Bool
  flowFree : StepInput Sim → Outcome Sim
  flowImpact : StepInput Sim → Outcome Sim
  flowFriction : StepInput Sim → Outcome (Sim × ImpactFrictionMapCfg)
  reached : (dtNum dtDen : Int64) → (endTime : F64) → (iteration : UInt32) → Bool

/-- Decimal digits as printed by `operator<<( std::ostream&, unsigned )`: least significant last, no leading zeros. -/
def decDigits (n : Nat) : Bytes :=
  if n < 10 then [UInt8.ofNat (48 + n)] else decDigits (n / 10) ++ [UInt8.ofNat (48 + n % 10)]
decreasing_by omega

/-- `std::setfill('0') << std::setw( width ) << n` -/
def padded (width n : Nat) : Bytes := List.replicate (width - (decDigits n).length) 48 ++ decDigits n

/-- `g_output_dir_name`, empty without HDF5 support. -/
def Snapshot.outputDir {Sim : Type} (g : Snapshot Sim) : Bytes := (g.hdf5.map Prod.fst).getD []

/-- `g_output_forces`, absent without HDF5 support. -/
def Snapshot.outputForces {Sim : Type} (g : Snapshot Sim) : Bool := (g.hdf5.map Prod.snd).getD false

/-- ball2dcli/ball2d_cli.cpp:73-84 `generateOutputConfigurationDataFileName` -/
def configFileName {Sim : Type} (g : Snapshot Sim) (pre ext : Bytes) : Bytes :=
  (if g.outputDir = [] then [] else g.outputDir ++ ascii "/") ++
    (pre ++ ascii "_" ++ padded g.saveNumberWidth.toNat g.outputFrame.toNat ++ ascii "." ++ ext)

/-- ball2dcli/ball2d_cli.cpp:345-351 `generateOutputConstraintForceDataFileName` (unsigned subtraction) -/
def forceFileName {Sim : Type} (g : Snapshot Sim) : Bytes :=
  g.outputDir ++ ascii "/forces_" ++ padded g.saveNumberWidth.toNat (g.outputFrame - 1).toNat ++ ascii ".h5"

/-- ball2dcli/ball2d_cli.cpp:201 -/
def snapshotFileName {Sim : Type} (g : Snapshot Sim) : Bytes :=
  if g.overwriteSnapshots then ascii "serial.bin" else configFileName g (ascii "serial") (ascii "bin")

/-- Files written, in order. A configuration file holds the time step, iteration and simulation state, here the globals it is written
from; likewise a force file holds data computed from the globals at the start of the step. -/
inductive Event (Sim : Type) where
  | config (file : Bytes) (g : Snapshot Sim)
  | snapshot (file : Bytes) (data : Bytes)
  | forces (file : Bytes) (g : Snapshot Sim)
deriving DecidableEq

/-- What an action writes and how it ends. -/
abbrev Action (Sim α : Type) := List (Event Sim) × α

/-- ball2dcli/ball2d_cli.cpp:318-342 `exportConfigurationData` (`saveState` 166-196 and `serializeSystem` 199-251 write one file
each). `% 0` is undefined. When serialising ends the process, the incomplete file is not listed. -/
def exportConfig {Sim : Type} (p : Program Sim) (g : Snapshot Sim) : Action Sim (Outcome (Snapshot Sim)) :=
  if g.stepsPerSave = 0 then ([], .ub)
  else if g.iteration % g.stepsPerSave = 0 then
    let c : List (Event Sim) :=
      if g.outputDir = [] then [] else [.config (configFileName g (ascii "config") (ascii "h5")) g]
    if g.serializeSnapshots then
      match serSnapshot p.format p.git g with
      | .ok data => (c ++ [.snapshot (snapshotFileName g) data], .ok { g with outputFrame := g.outputFrame + 1 })
      | .fail => (c, .fail)
      | .exit => (c, .exit)
      | .ub => (c, .ub)
    else (c, .ok { g with outputFrame := g.outputFrame + 1 })
  else ([], .ok g)

/-- ball2dcli/ball2d_cli.cpp:381-434: choose the kind of step by which solvers are present. rigidbody3dcli/rigidbody3d_cli.cpp:390-437 does not test the
impact map, which is a member of the simulation there. -/
def flowStep {Sim : Type} (p : Program Sim) (i : StepInput Sim) : Outcome (Sim × ImpactFrictionMapCfg) :=
  if i.integrator = .null ∧ i.impactOp = .null ∧ i.impactMap = .null ∧ i.frictionSolver = .null ∧ i.impactFrictionMap = .null then
    .ok (i.sim, i.impactFrictionMap)
  else if i.integrator ≠ .null ∧ i.impactOp = .null ∧ i.impactMap = .null ∧ i.frictionSolver = .null ∧
      i.impactFrictionMap = .null then
    (p.flowFree i).bind fun s => .ok (s, i.impactFrictionMap)
  else if i.integrator ≠ .null ∧ i.impactOp ≠ .null ∧ (p.format.hasImpactMap = true → i.impactMap ≠ .null) ∧ i.frictionSolver = .null ∧
      i.impactFrictionMap = .null then
    (p.flowImpact i).bind fun s => .ok (s, i.impactFrictionMap)
  else if i.integrator ≠ .null ∧ i.impactOp = .null ∧ i.impactMap = .null ∧ i.frictionSolver ≠ .null ∧
      i.impactFrictionMap ≠ .null then
    p.flowFriction i
  else .fail

/-- ball2dcli/ball2d_cli.cpp:353-439 `stepSystem` -/
def stepSystem {Sim : Type} (p : Program Sim) (g : Snapshot Sim) : Action Sim (Outcome (Snapshot Sim)) :=
  let f : List (Event Sim) :=
    if g.outputForces ∧ g.iteration % g.stepsPerSave = 0 then [.forces (forceFileName g) g] else []
  match flowStep p g.input with
  | .ok (s, ifm) =>
    let r := exportConfig p { g with sim := s, impactFrictionMap := ifm, iteration := g.iteration + 1 }
    (f ++ r.1, r.2)
  | .fail => (f, .fail)
  | .exit => (f, .exit)
  | .ub => (f, .ub)

/-- `g_iteration * scalar( g_dt ) >= g_end_time` -/
def endReached {Sim : Type} (p : Program Sim) (g : Snapshot Sim) : Bool :=
  p.reached g.dtNum g.dtDen g.endTime g.iteration

/-- ball2dcli/ball2d_cli.cpp:448-476, the `while( true )` of `executeSimLoop`, observed for at most the given number of rounds; `none`
is "still running". -/
def simLoop {Sim : Type} (p : Program Sim) : Nat → Snapshot Sim → Action Sim (Option (Outcome (Snapshot Sim)))
  | 0, _ => ([], none)
  | fuel + 1, g =>
    if endReached p g then
      if g.outputForces then
        let r := stepSystem p g
        (r.1, some r.2)
      else ([], some (.ok g))
    else
      let r := stepSystem p g
      match r.2 with
      | .ok g' =>
        let l := simLoop p fuel g'
        (r.1 ++ l.1, l.2)
      | .fail => (r.1, some .fail)
      | .exit => (r.1, some .exit)
      | .ub => (r.1, some .ub)

/-- ball2dcli/ball2d_cli.cpp:441-476 `executeSimLoop` -/
def executeSimLoop {Sim : Type} (p : Program Sim) (fuel : Nat) (g : Snapshot Sim) :
    Action Sim (Option (Outcome (Snapshot Sim))) :=
  let r := exportConfig p g
  match r.2 with
  | .ok g' =>
    let l := simLoop p fuel g'
    (r.1 ++ l.1, l.2)
  | .fail => (r.1, some .fail)
  | .exit => (r.1, some .exit)
  | .ub => (r.1, some .ub)

/-- `deserializeSystem`, ball2dcli/ball2d_cli.cpp:253-316, on the contents of the file -/
def loadSnapshot {Sim : Type} (p : Program Sim) : Dec (Snapshot Sim) :=
  deSnapshot p.format p.build p.useHdf5

/-- `main` with `--resume`, ball2dcli/ball2d_cli.cpp:660-667 -/
def resumeRun {Sim : Type} (p : Program Sim) (fuel : Nat) (file : Bytes) : Action Sim (Option (Outcome (Snapshot Sim))) :=
  match (loadSnapshot p).run file with
  | .ok (g, _) => executeSimLoop p fuel g
  | .fail => ([], some .fail)
  | .exit => ([], some .exit)
  | .ub => ([], some .ub)

/-- scisim/Math/MathUtilities.cpp:88-98 `computeNumDigits` -/
def computeNumDigitsLoop (n digits : Nat) : Nat :=
  if n = 0 then digits else computeNumDigitsLoop (n / 10) (digits + 1)
decreasing_by omega

def computeNumDigits (n : Nat) : Nat := if n = 0 then 1 else computeNumDigitsLoop n 0

/-- ball2dcli/ball2d_cli.cpp:688-708: steps per save from the output frequency: `1 / ( dt * frequency )`, which must be an
integer. Overflow of the rational arithmetic is undefined behaviour, conversion to `unsigned` wraps. -/
def stepsPerSaveOf (dt : Rat64) (frequency : Nat) : Outcome UInt32 :=
  if frequency ≠ 0 then
    (Rat64.mulInt dt frequency).bind fun d =>
    (Rat64.intDiv 1 d).bind fun r =>
    if r.isInteger then .ok (UInt32.ofInt r.num) else .fail
  else .ok 1

/-- ball2dcli/ball2d_cli.cpp:710: the width of frame numbers; `ceilSteps` is `unsigned( ceil( g_end_time / scalar( g_dt ) ) )`. -/
def saveNumberWidthOf (ceilSteps stepsPerSave : Nat) : Nat := computeNumDigits (1 + ceilSteps / stepsPerSave)

/-! ## Files and crashes -/

/-- The disk: contents of each file that exists. -/
abbrev Disk := Bytes → Option Bytes

/-- Primitive effects of writing one snapshot: `std::ofstream( name )` creates or truncates the file, then bytes are appended. -/
inductive DiskOp where
  | truncate (file : Bytes)
  | append (file : Bytes) (b : UInt8)

def Disk.apply (d : Disk) : DiskOp → Disk
  | .truncate f => fun x => if x = f then some [] else d x
  | .append f b => fun x => if x = f then (d x).map (· ++ [b]) else d x

/-- Writing a whole file. -/
def writeOps (file data : Bytes) : List DiskOp := .truncate file :: data.map (.append file)

def Disk.applyAll (d : Disk) (ops : List DiskOp) : Disk := ops.foldl Disk.apply d

/-- The disk effects of writing a file. `content` is what the HDF5 library writes for a configuration or force file; that it is written
front to back is a simplification, all that matters is that only this file is touched. -/
def Event.diskOps {Sim : Type} (content : Snapshot Sim → Bytes) : Event Sim → List DiskOp
  | .snapshot f data => writeOps f data
  | .config f g => writeOps f (content g)
  | .forces f g => writeOps f (content g)

/-- The disk effects of a run, in order. -/
def diskOpsOf {Sim : Type} (content : Snapshot Sim → Bytes) (evs : List (Event Sim)) : List DiskOp :=
  evs.flatMap (Event.diskOps content)

end Scisim
