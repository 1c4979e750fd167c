import Verif.Model.CLI
import Verif.Model.Edits
import Verif.Model.Vec2
/-!
# Python scripts

The functions the three programs offer to a script, the six callbacks through which a script runs, and the places in a run where they are called.

A Python function is any decision tree: it makes a call, looks at the reply and goes on. Reading the arguments from Python (`PyArg_ParseTuple`) is modelled
as far as types go: arguments of a wrong type end the program. Scalars are exact, so a radius that is not a number does not occur here.
-/

namespace Scisim.Scripting

/-- What a Python function does: return, raise an exception, or make a call and go on with its reply. -/
inductive Script (C R A : Type) where
  | done (a : A)
  | raise
  | call (c : C) (k : R → Script C R A)

/-- Runs a Python function. `none`: an exception left it. -/
def Script.run {C R A E : Type} (api : C → E → Outcome (R × E)) : Script C R A → E → Outcome (Option A × E)
  | .done a, e => .ok (some a, e)
  | .raise, e => .ok (none, e)
  | .call c k, e => (api c e).bind fun r => (k r.1).run api r.2

/-- What a script learns about a collision: `Constraint::name` and `Constraint::getBodyIndices` -/
structure Collision where
  kind : String
  first : Int
  second : Int
deriving DecidableEq

/-- The arrays lent to scripts -/
inductive Buffer where
  | q | v | mu | cor
deriving DecidableEq

/-- A NumPy array made by `PyArray_SimpleNewFromData`: a pointer into the program's own memory. `born` says which allocation it points to. -/
structure View where
  buffer : Buffer
  born : Nat
deriving DecidableEq

/-- Replies to a script. `error` is a Python exception the script may catch (an index outside of a NumPy array, a function the module does not have);
`number none` is NaN. -/
inductive Reply (S : Type) where
  | unit
  | error
  | count (n : Nat)
  | number (x : Option S)
  | name (s : String)
  | pair (i j : Int)
  | array (w : View)
deriving DecidableEq

/-- The calls a script can make; `own` are those particular to one program -/
inductive Call (O S : Type) where
  | timestep
  | nextIteration
  | configuration
  | velocity
  | mu
  | cor
  | read (w : View) (i : Int)
  | write (w : View) (i : Int) (x : S)
  | numCollisions
  | collisionType (i : Int)
  | collisionIndices (i : Int)
  | wrongArguments
  | own (o : O)

/-- The static variables of PythonScripting.cpp (ball2d 21-28, rigidbody2d 21-28, rigidbody3d 24-32) together with what they point to. `hasState` and
`hasIterate` say whether `s_ball_state` (`s_state`, `s_sim_state`) and `s_initial_iterate` are set; they can only point to the program's state and
iteration count. `timestep = none` is NaN. `stateClock` counts how often the memory of the configuration and velocity was given up, `coefClock` how often that
of a coefficient vector was. -/
structure Machine (W S : Type) where
  world : W
  iterate : Nat
  hasState : Bool
  hasIterate : Bool
  timestep : Option S
  nextIteration : Nat
  mu : Option (List S)
  cor : Option (List S)
  active : Option (List Collision)
  stateClock : Nat
  coefClock : Nat

/-- How a program's state offers its configuration and velocity to scripts -/
class Vectors (W : Type) (S : outParam Type) where
  q : W → Arr S
  v : W → Arr S
  setQ : W → Arr S → W
  setV : W → Arr S → W

/-- A program's own calls, and whether its module has the calls about arrays and collisions (rigidbody2d has none, rigidbody2d/PythonScripting.cpp:615-630). -/
structure Interface (W S O : Type) where
  arrays : Bool
  own : O → Machine W S → Outcome (Reply S × Machine W S)

/-- Following a pointer that may be null -/
def deref {α : Type} : Option α → Outcome α
  | none => .ub
  | some a => .ok a

/-- `s_ball_state->…`: undefined if the pointer is null -/
def Machine.state {W S : Type} (m : Machine W S) : Outcome W := if m.hasState then .ok m.world else .ub

/-- Format `I` of `PyArg_ParseTuple`: an `unsigned int`, without overflow check -/
def asUnsigned (i : Int) : Nat := (i % 4294967296).toNat

/-- `if( idx > x.size() ) exit; … x[idx] …` — the test all functions with an index make, e.g. ball2d/PythonScripting.cpp:422-428. One past the end is not
caught. -/
def element {α : Type} (l : List α) (i : Int) : Outcome α :=
  if asUnsigned i > l.length then .exit else deref (l[asUnsigned i]?)

/-- `if( idx > x.size() ) exit; x[idx].set… ( … )` -/
def modifyElement {α : Type} (l : List α) (i : Int) (f : α → α) : Outcome (List α) :=
  (element l i).bind fun a => .ok (l.set (asUnsigned i) (f a))

/-- `if( idx > x.size() ) exit; x.erase( x.begin() + idx )` — erasing at the end is undefined -/
def eraseElement {α : Type} (l : List α) (i : Int) : Outcome (List α) :=
  (element l i).bind fun _ => .ok (l.eraseIdx (asUnsigned i))

/-- NumPy indexing: negative indices count from the end; `none` is an `IndexError` -/
def numpyIndex (n : Nat) (i : Int) : Option Nat :=
  if 0 ≤ i ∧ i < n then some i.toNat else if i < 0 ∧ -(n : Int) ≤ i then some (n + i).toNat else none

/-- Reading through a view: undefined if the memory was given up -/
def readView {W S : Type} [Vectors W S] (m : Machine W S) (w : View) (i : Int) : Outcome (Reply S) :=
  match w.buffer with
  | .q => if w.born ≠ m.stateClock then .ub else
      .ok (match numpyIndex (Vectors.q m.world).size i with | none => .error | some k => .number (some ((Vectors.q m.world).get k)))
  | .v => if w.born ≠ m.stateClock then .ub else
      .ok (match numpyIndex (Vectors.v m.world).size i with | none => .error | some k => .number (some ((Vectors.v m.world).get k)))
  | .mu => if w.born ≠ m.coefClock then .ub else (deref m.mu).bind fun l =>
      match numpyIndex l.length i with | none => .ok .error | some k => (deref l[k]?).bind fun x => .ok (.number (some x))
  | .cor => if w.born ≠ m.coefClock then .ub else (deref m.cor).bind fun l =>
      match numpyIndex l.length i with | none => .ok .error | some k => (deref l[k]?).bind fun x => .ok (.number (some x))

/-- Writing through a view: it changes the program's own memory -/
def writeView {W S : Type} [Vectors W S] (m : Machine W S) (w : View) (i : Int) (x : S) : Outcome (Reply S × Machine W S) :=
  match w.buffer with
  | .q => if w.born ≠ m.stateClock then .ub else
      match numpyIndex (Vectors.q m.world).size i with
      | none => .ok (.error, m)
      | some k => .ok (.unit, { m with world := Vectors.setQ m.world ((Vectors.q m.world).set k x) })
  | .v => if w.born ≠ m.stateClock then .ub else
      match numpyIndex (Vectors.v m.world).size i with
      | none => .ok (.error, m)
      | some k => .ok (.unit, { m with world := Vectors.setV m.world ((Vectors.v m.world).set k x) })
  | .mu => if w.born ≠ m.coefClock then .ub else (deref m.mu).bind fun l =>
      match numpyIndex l.length i with
      | none => .ok (.error, m)
      | some k => .ok (.unit, { m with mu := some (l.set k x) })
  | .cor => if w.born ≠ m.coefClock then .ub else (deref m.cor).bind fun l =>
      match numpyIndex l.length i with
      | none => .ok (.error, m)
      | some k => .ok (.unit, { m with cor := some (l.set k x) })

/-- The functions of the modules `balls2d`, `rigidbody2d` and `rigidbody3d`: ball2d/PythonScripting.cpp:331-590, rigidbody2d/PythonScripting.cpp:317-630,
rigidbody3d/PythonScripting.cpp:346-660 -/
def call {W S O : Type} [Vectors W S] (I : Interface W S O) : Call O S → Machine W S → Outcome (Reply S × Machine W S)
  | .timestep, m => .ok (.number m.timestep, m)
  | .nextIteration, m => .ok (.count m.nextIteration, m)
  | .configuration, m => if I.arrays then m.state.bind fun _ => .ok (.array ⟨.q, m.stateClock⟩, m) else .ok (.error, m)
  | .velocity, m => if I.arrays then m.state.bind fun _ => .ok (.array ⟨.v, m.stateClock⟩, m) else .ok (.error, m)
  | .mu, m => if I.arrays then (deref m.mu).bind fun _ => .ok (.array ⟨.mu, m.coefClock⟩, m) else .ok (.error, m)
  | .cor, m => if I.arrays then (deref m.cor).bind fun _ => .ok (.array ⟨.cor, m.coefClock⟩, m) else .ok (.error, m)
  | .read w i, m => if I.arrays then (readView m w i).bind fun r => .ok (r, m) else .ok (.error, m)
  | .write w i x, m => if I.arrays then writeView m w i x else .ok (.error, m)
  | .numCollisions, m => if I.arrays then (deref m.active).bind fun l => .ok (.count l.length, m) else .ok (.error, m)
  | .collisionType i, m =>
    if I.arrays then (deref m.active).bind fun l => (element l i).bind fun c => .ok (.name c.kind, m) else .ok (.error, m)
  | .collisionIndices i, m =>
    if I.arrays then (deref m.active).bind fun l => (element l i).bind fun c => .ok (.pair c.first c.second, m) else .ok (.error, m)
  | .wrongArguments, _ => .exit
  | .own o, m => I.own o m

/-! ## The calls of the three programs -/

/-- A static plane of `balls2d`, ball2d/StaticGeometry/StaticPlane.h -/
structure BallPlane (S : Type) where
  x : V2 S
  n : V2 S
  v : V2 S
deriving DecidableEq

/-- What scripts can reach in a `Ball2DState` -/
structure BallWorld (S : Type) where
  balls : BallStore S
  planes : List (BallPlane S)

instance {S : Type} : Vectors (BallWorld S) S where
  q w := w.balls.q
  v w := w.balls.v
  setQ w a := { w with balls := { w.balls with q := a } }
  setV w a := { w with balls := { w.balls with v := a } }

/-- The calls particular to `balls2d` -/
inductive BallCall (S : Type) where
  | insertBall (x y vx vy r m : S) (fixed : Int)
  | numStaticPlanes
  | setStaticPlanePosition (i : Int) (x y : S)
  | setStaticPlaneVelocity (i : Int) (vx vy : S)
  | deleteStaticPlane (i : Int)

section
variable {S : Type}

/-- ball2d/PythonScripting.cpp:366-477. `insertBall` reallocates the configuration and velocity (ball2d/Ball2DState.cpp:319-325); its arguments are
checked before the state is used. -/
def ballCall [One S] [Div S] [Zero S] [LE S] [DecidableLE S] :
    BallCall S → Machine (BallWorld S) S → Outcome (Reply S × Machine (BallWorld S) S)
  | .insertBall x y vx vy r mass fixed, m =>
    (m.world.balls.scriptInsertBall x y vx vy r mass fixed).bind fun b => m.state.bind fun w =>
      .ok (.unit, { m with world := { w with balls := b }, stateClock := m.stateClock + 1 })
  | .numStaticPlanes, m => m.state.bind fun w => .ok (.count w.planes.length, m)
  | .setStaticPlanePosition i x y, m =>
    m.state.bind fun w => (modifyElement w.planes i fun p => { p with x := ⟨x, y⟩ }).bind fun l =>
      .ok (.unit, { m with world := { w with planes := l } })
  | .setStaticPlaneVelocity i x y, m =>
    m.state.bind fun w => (modifyElement w.planes i fun p => { p with v := ⟨x, y⟩ }).bind fun l =>
      .ok (.unit, { m with world := { w with planes := l } })
  | .deleteStaticPlane i, m =>
    m.state.bind fun w => (eraseElement w.planes i).bind fun l => .ok (.unit, { m with world := { w with planes := l } })

/-- The module `balls2d`, ball2d/PythonScripting.cpp:561-577 -/
def balls2d [One S] [Div S] [Zero S] [LE S] [DecidableLE S] : Interface (BallWorld S) S (BallCall S) := ⟨true, ballCall⟩

/-- A static plane of `rigidbody2d`, rigidbody2d/RigidBody2DStaticPlane.h -/
structure BodyPlane (S : Type) where
  x : V2 S
  n : V2 S
  t : V2 S
  v : V2 S
  omega : S
deriving DecidableEq

/-- What scripts can reach in a `RigidBody2DState` -/
structure BodyWorld (S G : Type) where
  bodies : RbStore S G
  planes : List (BodyPlane S)

/-- `rigidbody2d` lends no arrays (the instance is never used) -/
instance {G : Type} : Vectors (BodyWorld S G) S where
  q w := w.bodies.q
  v w := w.bodies.v
  setQ w a := { w with bodies := { w.bodies with q := a } }
  setV w a := { w with bodies := { w.bodies with v := a } }

/-- The calls particular to `rigidbody2d` -/
inductive BodyCall (S : Type) where
  | numStaticPlanes
  | setStaticPlanePosition (i : Int) (x y : S)
  | setStaticPlaneVelocity (i : Int) (vx vy : S)
  | setStaticPlaneNormal (i : Int) (nx ny : S)
  | setStaticPlaneAngularVelocity (i : Int) (omega : S)
  | deleteStaticPlane (i : Int)
  | numBodies
  | numGeometryInstances
  | addCircleGeometry (r : S)
  | addBody (x y theta vx vy omega rho : S) (geometry fixed : Int)
  | deleteBodies (indices : List Nat)
  | deleteGeometry (indices : List Nat)

/-- `RigidBody2DStaticPlane::setN`, rigidbody2d/RigidBody2DStaticPlane.cpp:66-71; `normalized` is Eigen's, which leaves the zero vector alone -/
def BodyPlane.setN [Neg S] (normalized : V2 S → V2 S) (p : BodyPlane S) (n : V2 S) : BodyPlane S :=
  { p with n := normalized n, t := ⟨-(normalized n).y, (normalized n).x⟩ }

/-- rigidbody2d/PythonScripting.cpp:331-613 -/
def bodyCall {G : Type} [HasNaN S] [Neg S] [One S] [Div S] [Zero S] [LE S] [DecidableLE S] (normalized : V2 S → V2 S) (junk : Nat → Nat) (circle : S → G)
    (massInertia : G → S → S × S) : BodyCall S → Machine (BodyWorld S G) S → Outcome (Reply S × Machine (BodyWorld S G) S)
  | .numStaticPlanes, m => m.state.bind fun w => .ok (.count w.planes.length, m)
  | .setStaticPlanePosition i x y, m =>
    m.state.bind fun w => (modifyElement w.planes i fun p => { p with x := ⟨x, y⟩ }).bind fun l =>
      .ok (.unit, { m with world := { w with planes := l } })
  | .setStaticPlaneVelocity i x y, m =>
    m.state.bind fun w => (modifyElement w.planes i fun p => { p with v := ⟨x, y⟩ }).bind fun l =>
      .ok (.unit, { m with world := { w with planes := l } })
  | .setStaticPlaneNormal i x y, m =>
    m.state.bind fun w => (modifyElement w.planes i fun p => p.setN normalized ⟨x, y⟩).bind fun l =>
      .ok (.unit, { m with world := { w with planes := l } })
  | .setStaticPlaneAngularVelocity i o, m =>
    m.state.bind fun w => (modifyElement w.planes i fun p => { p with omega := o }).bind fun l =>
      .ok (.unit, { m with world := { w with planes := l } })
  | .deleteStaticPlane i, m =>
    m.state.bind fun w => (eraseElement w.planes i).bind fun l => .ok (.unit, { m with world := { w with planes := l } })
  | .numBodies, m => m.state.bind fun w => .ok (.count w.bodies.nbodies, m)
  | .numGeometryInstances, m => m.state.bind fun w => .ok (.count w.bodies.geo.size, m)
  | .addCircleGeometry r, m =>
    (m.world.bodies.scriptAddCircle circle r).bind fun b => m.state.bind fun w => .ok (.unit, { m with world := { w with bodies := b } })
  | .addBody x y theta vx vy omega rho g f, m =>
    if rho ≤ 0 then .exit else m.state.bind fun w => (w.bodies.scriptAddBody massInertia x y theta vx vy omega rho g f).bind fun b =>
      .ok (.unit, { m with world := { w with bodies := b }, stateClock := m.stateClock + 1 })
  | .deleteBodies is, m =>
    m.state.bind fun w => (w.bodies.scriptDeleteBodies is).bind fun b =>
      .ok (.unit, { m with world := { w with bodies := b }, stateClock := m.stateClock + 1 })
  | .deleteGeometry is, m =>
    m.state.bind fun w => (w.bodies.scriptDeleteGeometry junk is).bind fun b => .ok (.unit, { m with world := { w with bodies := b } })

/-- The module `rigidbody2d`, rigidbody2d/PythonScripting.cpp:615-630 -/
def rigidbody2d {G : Type} [HasNaN S] [Neg S] [One S] [Div S] [Zero S] [LE S] [DecidableLE S] (normalized : V2 S → V2 S) (junk : Nat → Nat)
    (circle : S → G) (massInertia : G → S → S × S) : Interface (BodyWorld S G) S (BodyCall S) := ⟨false, bodyCall normalized junk circle massInertia⟩

/-- `Vector3s` -/
structure Triple (S : Type) where
  x : S
  y : S
  z : S
deriving DecidableEq

/-- A static plane of `rigidbody3d` as far as scripts change it; `R` is its orientation -/
structure SpacePlane (S Q : Type) where
  x : Triple S
  R : Q
  v : Triple S
deriving DecidableEq

/-- A static cylinder of `rigidbody3d`, rigidbody3d/StaticGeometry/StaticCylinder.h -/
structure SpaceCylinder (S : Type) where
  x : Triple S
  n : Triple S
  theta : S
  v : Triple S
  omega : Triple S
  r : S
deriving DecidableEq

/-- What scripts can reach in a `RigidBody3DState`. All forces are `NearEarthGravityForce` (the only subclass of `Force` in rigidbody3d/Forces), given by
their acceleration. -/
structure SpaceWorld (S Q : Type) where
  q : Arr S
  v : Arr S
  planes : List (SpacePlane S Q)
  cylinders : List (SpaceCylinder S)
  forces : List (Triple S)

instance {Q : Type} : Vectors (SpaceWorld S Q) S where
  q w := w.q
  v w := w.v
  setQ w a := { w with q := a }
  setV w a := { w with v := a }

/-- The calls particular to `rigidbody3d` -/
inductive SpaceCall (S : Type) where
  | numStaticPlanes
  | setStaticPlanePosition (i : Int) (x : Triple S)
  | setStaticPlaneVelocity (i : Int) (v : Triple S)
  | numStaticCylinders
  | setStaticCylinderOrientation (i : Int) (axis : Triple S) (theta : S)
  | setStaticCylinderAngularVelocity (i : Int) (omega : Triple S)
  | numForces
  | forceType (i : Int)
  | setGravityForce (i : Int) (g : Triple S)
  | setInitialIterate (n : Int)

/-- rigidbody3d/PythonScripting.cpp:379-487 and 546-626. `unit` is the test `fabs( axis.norm() - 1.0 ) <= 1.0e-6` and `normalized` is Eigen's. -/
def spaceCall {Q : Type} (unit : Triple S → Bool) (normalized : Triple S → Triple S) :
    SpaceCall S → Machine (SpaceWorld S Q) S → Outcome (Reply S × Machine (SpaceWorld S Q) S)
  | .numStaticPlanes, m => m.state.bind fun w => .ok (.count w.planes.length, m)
  | .setStaticPlanePosition i x, m =>
    m.state.bind fun w => (modifyElement w.planes i fun p => { p with x := x }).bind fun l => .ok (.unit, { m with world := { w with planes := l } })
  | .setStaticPlaneVelocity i v, m =>
    m.state.bind fun w => (modifyElement w.planes i fun p => { p with v := v }).bind fun l => .ok (.unit, { m with world := { w with planes := l } })
  | .numStaticCylinders, m => m.state.bind fun w => .ok (.count w.cylinders.length, m)
  | .setStaticCylinderOrientation i axis theta, m =>
    m.state.bind fun w =>
      if asUnsigned i > w.cylinders.length then .exit
      else if unit axis = false then .exit
      else (deref w.cylinders[asUnsigned i]?).bind fun c =>
        .ok (.unit, { m with world := { w with cylinders := w.cylinders.set (asUnsigned i) { c with n := normalized axis, theta := theta } } })
  | .setStaticCylinderAngularVelocity i omega, m =>
    m.state.bind fun w => (modifyElement w.cylinders i fun c => { c with omega := omega }).bind fun l =>
      .ok (.unit, { m with world := { w with cylinders := l } })
  | .numForces, m => m.state.bind fun w => .ok (.count w.forces.length, m)
  | .forceType i, m => m.state.bind fun w => (element w.forces i).bind fun _ => .ok (.name "near_earth_gravity", m)
  | .setGravityForce i g, m =>
    m.state.bind fun w => (modifyElement w.forces i fun _ => g).bind fun l => .ok (.unit, { m with world := { w with forces := l } })
  | .setInitialIterate n, m => if m.hasIterate then .ok (.unit, { m with iterate := asUnsigned n }) else .ub

/-- The module `rigidbody3d`, rigidbody3d/PythonScripting.cpp:628-649 -/
def rigidbody3d {Q : Type} (unit : Triple S → Bool) (normalized : Triple S → Triple S) : Interface (SpaceWorld S Q) S (SpaceCall S) :=
  ⟨true, spaceCall unit normalized⟩

end

/-! ## Callbacks -/

/-- A record of the callbacks made: for the coefficient callbacks, the number of contacts -/
inductive Callback (S : Type) where
  | startOfSim
  | endOfSim
  | startOfStep (n : Nat) (dt : S)
  | endOfStep (n : Nat) (dt : S)
  | frictionCoefficient (contacts : Nat)
  | restitutionCoefficient (contacts : Nat)
deriving DecidableEq

/-- A loaded Python module: the functions it defines (`PythonTools::loadFunction`, scisim/PythonTools.cpp:63-83; those it does not define are null). `M` is
what the module remembers between callbacks, its global variables. -/
structure Module (O S M : Type) where
  startOfSim : Option (M → Script (Call O S) (Reply S) M)
  endOfSim : Option (M → Script (Call O S) (Reply S) M)
  startOfStep : Option (M → Script (Call O S) (Reply S) M)
  endOfStep : Option (M → Script (Call O S) (Reply S) M)
  frictionCoefficient : Option (M → Script (Call O S) (Reply S) M)
  restitutionCoefficient : Option (M → Script (Call O S) (Reply S) M)

/-- No module (an empty module name): `ScriptingCallback` then calls nothing, scisim/ScriptingCallback.cpp:11-67 -/
def Module.none {O S M : Type} : Module O S M := ⟨.none, .none, .none, .none, .none, .none⟩

/-- A running program with its script -/
structure Live (W S M : Type) where
  machine : Machine W S
  memory : M
  log : List (Callback S)

section
variable {W S O M : Type} [Vectors W S]

/-- The pattern of all six callbacks (ball2d/PythonScripting.cpp:138-277): nothing if the module lacks the function; otherwise the static variables are
prepared, the function is called, an exception ends the program, and the variables are put back. -/
def invoke (I : Interface W S O) (f : Option (M → Script (Call O S) (Reply S) M)) (name : Callback S) (pre post : Machine W S → Machine W S)
    (x : Live W S M) : Outcome (Live W S M) :=
  match f with
  | none => .ok x
  | some f =>
    ((f x.memory).run (call I) (pre x.machine)).bind fun r =>
      match r.1 with
      | none => .exit
      | some mem => .ok { machine := post r.2, memory := mem, log := x.log ++ [name] }

/-- `setState( … ); …; forgetState()`, e.g. ball2d/Ball2DSim.cpp:261-263 -/
def withState (f : Live W S M → Outcome (Live W S M)) (x : Live W S M) : Outcome (Live W S M) :=
  (f { x with machine := { x.machine with hasState := true } }).bind fun y =>
    .ok { y with machine := { y.machine with hasState := false, hasIterate := false } }

/-- ball2d/PythonScripting.cpp:192-212 and rigidbody3d_cli.cpp:156-159: `setInitialIterate` exists in three dimensions only -/
def startOfSim (I : Interface W S O) (mod : Module O S M) (x : Live W S M) : Outcome (Live W S M) :=
  withState (fun x => invoke I mod.startOfSim .startOfSim (fun m => { m with hasIterate := true }) id x) x

/-- ball2d/PythonScripting.cpp:214-234, ball2dcli/ball2d_cli.cpp:464-466 -/
def endOfSim (I : Interface W S O) (mod : Module O S M) (x : Live W S M) : Outcome (Live W S M) :=
  withState (invoke I mod.endOfSim .endOfSim id id) x

/-- ball2d/PythonScripting.cpp:236-260 -/
def startOfStep (I : Interface W S O) (mod : Module O S M) (n : Nat) (dt : S) (x : Live W S M) : Outcome (Live W S M) :=
  withState (invoke I mod.startOfStep (.startOfStep n dt) (fun m => { m with timestep := some dt, nextIteration := n })
    (fun m => { m with timestep := none, nextIteration := 0 })) x

/-- ball2d/PythonScripting.cpp:262-286 -/
def endOfStep (I : Interface W S O) (mod : Module O S M) (n : Nat) (dt : S) (x : Live W S M) : Outcome (Live W S M) :=
  withState (invoke I mod.endOfStep (.endOfStep n dt) (fun m => { m with timestep := some dt, nextIteration := n })
    (fun m => { m with timestep := none, nextIteration := 0 })) x

/-- ball2d/PythonScripting.cpp:165-190. The coefficients are the caller's vector, changed in place; afterwards that memory is given up. The checks in
scisim/ScriptingCallback.cpp:19-20 and 31 are assertions. -/
def frictionCoefficient (I : Interface W S O) (mod : Module O S M) (contacts : List Collision) (mu : List S) (x : Live W S M) :
    Outcome (List S × Live W S M) :=
  match mod.frictionCoefficient with
  | none => .ok (mu, x)
  | some f =>
    ((f x.memory).run (call I) { x.machine with mu := some mu, active := some contacts }).bind fun r =>
      match r.1 with
      | none => .exit
      | some mem => (deref r.2.mu).bind fun mu' =>
          .ok (mu', { machine := { r.2 with mu := none, active := none, coefClock := r.2.coefClock + 1 }, memory := mem
                      log := x.log ++ [.frictionCoefficient contacts.length] })

/-- ball2d/PythonScripting.cpp:138-163 -/
def restitutionCoefficient (I : Interface W S O) (mod : Module O S M) (contacts : List Collision) (cor : List S) (x : Live W S M) :
    Outcome (List S × Live W S M) :=
  match mod.restitutionCoefficient with
  | none => .ok (cor, x)
  | some f =>
    ((f x.memory).run (call I) { x.machine with cor := some cor, active := some contacts }).bind fun r =>
      match r.1 with
      | none => .exit
      | some mem => (deref r.2.cor).bind fun cor' =>
          .ok (cor', { machine := { r.2 with cor := none, active := none, coefClock := r.2.coefClock + 1 }, memory := mem
                       log := x.log ++ [.restitutionCoefficient contacts.length] })

/-! ## A step -/

/-- What the simulation does between the callbacks; `n` is the step's number. `D` is what the maps compute before they ask for coefficients (predicted
positions, contacts), which they use afterwards. -/
structure Physics (W S D : Type) where
  free : (n : Nat) → W → Outcome W
  predict : (n : Nat) → W → Outcome (D × List Collision)
  settle : (n : Nat) → W → D → Outcome W
  respond : (n : Nat) → W → D → (mu : Option (List S)) → (cor : List S) → Outcome W

/-- `q1.swap( m_state.q() )`: the state's vectors are new ones, the old ones are freed at the end of the step. (Between the swap
and the end of the step, that is in `endOfStep`, a view of the old vectors still reads the old values; here it counts as invalid already.) -/
def Live.moved (x : Live W S M) (w : W) : Live W S M :=
  { x with machine := { x.machine with world := w, stateClock := x.machine.stateClock + 1 } }

variable {D : Type}

/-- `Ball2DSim::flow` without contacts, ball2d/Ball2DSim.cpp:259-280, and likewise `RigidBody2DSim::flow`, rigidbody2d/RigidBody2DSim.cpp:764-785 -/
def flowFree (I : Interface W S O) (mod : Module O S M) (P : Physics W S D) (n : Nat) (dt : S) (x : Live W S M) : Outcome (Live W S M) :=
  (startOfStep I mod n dt x).bind fun x =>
  (P.free n x.machine.world).bind fun w =>
  endOfStep I mod n dt (x.moved w)

/-- `Ball2DSim::flow` with an impact operator, ball2d/Ball2DSim.cpp:282-303, `RigidBody2DSim::flow`, rigidbody2d/RigidBody2DSim.cpp:787-808, and `ImpactMap::flow`, scisim/ConstrainedMaps/ImpactMaps/ImpactMap.cpp:61-103 -/
def flowImpact (I : Interface W S O) (mod : Module O S M) (P : Physics W S D) (n : Nat) (dt cor : S) (x : Live W S M) : Outcome (Live W S M) :=
  (startOfStep I mod n dt x).bind fun x =>
  (P.predict n x.machine.world).bind fun d =>
  (if d.2 = [] then (P.settle n x.machine.world d.1).bind fun w => .ok (x.moved w)
   else
    (restitutionCoefficient I mod d.2 (List.replicate d.2.length cor) x).bind fun c =>
    (P.respond n c.2.machine.world d.1 none c.1).bind fun w => .ok (c.2.moved w)).bind fun x =>
  endOfStep I mod n dt x

/-- `Ball2DSim::flow` with friction, ball2d/Ball2DSim.cpp:305-326, `RigidBody2DSim::flow`, rigidbody2d/RigidBody2DSim.cpp:810-831, and the flows of the impact-friction maps:
SymplecticEulerImpactFrictionMap.cpp:236-262, GeometricImpactFrictionMap.cpp:286-317, StabilizedImpactFrictionMap.cpp:67-98 -/
def flowFriction (I : Interface W S O) (mod : Module O S M) (P : Physics W S D) (n : Nat) (dt cor mu : S) (x : Live W S M) : Outcome (Live W S M) :=
  (startOfStep I mod n dt x).bind fun x =>
  (P.predict n x.machine.world).bind fun d =>
  (if d.2 = [] then (P.settle n x.machine.world d.1).bind fun w => .ok (x.moved w)
   else
    (frictionCoefficient I mod d.2 (List.replicate d.2.length mu) x).bind fun f =>
    (restitutionCoefficient I mod d.2 (List.replicate d.2.length cor) f.2).bind fun c =>
    (P.respond n c.2.machine.world d.1 (some f.1) c.1).bind fun w => .ok (c.2.moved w)).bind fun x =>
  endOfStep I mod n dt x

/-- A command line program whose simulation runs a script. What the simulation computes may depend on everything `stepSystem` hands to it; it may also
update the persistent data of the impact-friction map. `num` is `scalar( … )`. -/
def scripted (base : Program (Live W S M)) (I : Interface W S O) (mod : Module O S M) (P : StepInput (Live W S M) → Physics W S D)
    (time : Int64 → Int64 → S) (num : F64 → S) (keep : StepInput (Live W S M) → Live W S M → ImpactFrictionMapCfg) : Program (Live W S M) :=
  { base with
    flowFree := fun i => flowFree I mod (P i) (i.iteration + 1).toNat (time i.dtNum i.dtDen) i.sim
    flowImpact := fun i => flowImpact I mod (P i) (i.iteration + 1).toNat (time i.dtNum i.dtDen) (num i.cor) i.sim
    flowFriction := fun i =>
      (flowFriction I mod (P i) (i.iteration + 1).toNat (time i.dtNum i.dtDen) (num i.cor) (num i.mu) i.sim).bind fun x => .ok (x, keep i x) }

/-- ball2dcli/ball2d_cli.cpp:146-153 and rigidbody3dcli/rigidbody3d_cli.cpp:151-159: after the scene is loaded -/
def startScene (I : Interface W S O) (mod : Module O S M) (g : Snapshot (Live W S M)) : Outcome (Snapshot (Live W S M)) :=
  (startOfSim I mod { g.sim with machine := { g.sim.machine with iterate := g.iteration.toNat } }).bind fun x =>
    .ok { g with sim := x, iteration := UInt32.ofNat x.machine.iterate }

/-- A run of a scene from loading it to the end of the simulation, ball2dcli/ball2d_cli.cpp:146-153 and 441-476, observed for at most `fuel` rounds; `none` is
"still running" -/
def runScene (p : Program (Live W S M)) (I : Interface W S O) (mod : Module O S M) (fuel : Nat) (g : Snapshot (Live W S M)) :
    Option (Outcome (Snapshot (Live W S M))) :=
  match startScene I mod g with
  | .ok g1 =>
    match (executeSimLoop p fuel g1).2 with
    | none => none
    | some (.ok gf) => some ((endOfSim I mod gf.sim).bind fun x => .ok { gf with sim := x })
    | some .fail => some .fail
    | some .exit => some .exit
    | some .ub => some .ub
  | .fail => some .fail
  | .exit => some .exit
  | .ub => some .ub

end

end Scisim.Scripting
