import Verif.Model.Scripting
import Verif.Spec.Edits
import Verif.Spec.CLI
/-!
# What a script may do, and what it then does

The scene as the author of a script thinks of it: lists of balls, planes and so on, and one of five situations a script can run in. `none` marks what the
author must not do. Nothing here mentions pointers or static variables.
-/

namespace Scisim.Scripting

/-- Where in a run a script is called -/
inductive Phase (S : Type) where
  /-- before the first step -/
  | simStart
  /-- at the start or the end of step `n` of length `dt` -/
  | step (n : Nat) (dt : S)
  /-- after the last step -/
  | simEnd
  /-- the friction coefficients of these contacts are asked for; they have the given values now -/
  | friction (contacts : List Collision) (mu : List S)
  /-- likewise the coefficients of restitution -/
  | restitution (contacts : List Collision) (cor : List S)

/-- Whether the scene may be looked at and changed -/
def Phase.open {S : Type} : Phase S → Bool
  | .simStart | .step _ _ | .simEnd => true
  | .friction _ _ | .restitution _ _ => false

/-- The contacts, if there are any to talk about -/
def Phase.contacts {S : Type} : Phase S → Option (List Collision)
  | .friction c _ | .restitution c _ => some c
  | _ => none

/-- The author's picture: the scene, the situation, the number of the step before the first one, and which arrays are current -/
structure Author (A S : Type) where
  scene : A
  phase : Phase S
  iterate : Nat
  stateTag : Nat
  coefTag : Nat

/-- How the scene's configuration and velocity read as arrays -/
class SceneVectors (A : Type) (S : outParam Type) where
  q : A → List S
  v : A → List S
  setQ : A → Nat → S → A
  setV : A → Nat → S → A

/-- The rules of one program -/
structure Rules (A S O : Type) where
  arrays : Bool
  own : O → Author A S → Option (Reply S × Author A S)

/-- An index that names an element -/
def place {α : Type} (l : List α) (i : Int) : Option Nat := if 0 ≤ i ∧ i < l.length ∧ i < 4294967296 then some i.toNat else none

/-- Python's indexing of a sequence of `n` elements -/
def pythonIndex (n : Nat) (i : Int) : Option Nat :=
  if 0 ≤ i then (if i.toNat < n then some i.toNat else none) else if (-i).toNat ≤ n then some (n - (-i).toNat) else none

/-- The value at an index, or an exception -/
def lookAt {S : Type} (l : List S) (i : Int) : Reply S :=
  match (pythonIndex l.length i).bind (l[·]?) with
  | none => .error
  | some x => .number (some x)

/-- What a call means -/
def ask {A S O : Type} [SceneVectors A S] (R : Rules A S O) : Call O S → Author A S → Option (Reply S × Author A S)
  | .own o, a => R.own o a
  | .wrongArguments, _ => none
  | .timestep, a => match a.phase with
    | .step _ dt => some (.number (some dt), a)
    | _ => none
  | .nextIteration, a => match a.phase with
    | .step n _ => some (.count n, a)
    | _ => none
  | .configuration, a => if R.arrays && a.phase.open then some (.array ⟨.q, a.stateTag⟩, a) else none
  | .velocity, a => if R.arrays && a.phase.open then some (.array ⟨.v, a.stateTag⟩, a) else none
  | .mu, a => match R.arrays, a.phase with
    | true, .friction _ _ => some (.array ⟨.mu, a.coefTag⟩, a)
    | _, _ => none
  | .cor, a => match R.arrays, a.phase with
    | true, .restitution _ _ => some (.array ⟨.cor, a.coefTag⟩, a)
    | _, _ => none
  | .numCollisions, a => if R.arrays then a.phase.contacts.map fun c => (.count c.length, a) else none
  | .collisionType i, a =>
    if R.arrays then a.phase.contacts.bind fun c => ((place c i).bind (c[·]?)).map fun k => (.name k.kind, a) else none
  | .collisionIndices i, a =>
    if R.arrays then a.phase.contacts.bind fun c => ((place c i).bind (c[·]?)).map fun k => (.pair k.first k.second, a) else none
  | .read w i, a => if R.arrays = false then none else
    match w.buffer, a.phase with
    | .q, p => if p.open ∧ w.born = a.stateTag then some (lookAt (SceneVectors.q a.scene) i, a) else none
    | .v, p => if p.open ∧ w.born = a.stateTag then some (lookAt (SceneVectors.v a.scene) i, a) else none
    | .mu, .friction _ l => if w.born = a.coefTag then some (lookAt l i, a) else none
    | .cor, .restitution _ l => if w.born = a.coefTag then some (lookAt l i, a) else none
    | _, _ => none
  | .write w i x, a => if R.arrays = false then none else
    match w.buffer, a.phase with
    | .q, p => if p.open ∧ w.born = a.stateTag then
        some (match pythonIndex (SceneVectors.q a.scene).length i with
          | none => (.error, a)
          | some k => (.unit, { a with scene := SceneVectors.setQ a.scene k x })) else none
    | .v, p => if p.open ∧ w.born = a.stateTag then
        some (match pythonIndex (SceneVectors.v a.scene).length i with
          | none => (.error, a)
          | some k => (.unit, { a with scene := SceneVectors.setV a.scene k x })) else none
    | .mu, .friction c l => if w.born = a.coefTag then
        some (match pythonIndex l.length i with
          | none => (.error, a)
          | some k => (.unit, { a with phase := .friction c (l.set k x) })) else none
    | .cor, .restitution c l => if w.born = a.coefTag then
        some (match pythonIndex l.length i with
          | none => (.error, a)
          | some k => (.unit, { a with phase := .restitution c (l.set k x) })) else none
    | _, _ => none

/-- What a Python function means: its result (`none`: an exception left it) and the author's picture afterwards; `none` if it does something it must not -/
def Script.intended {A S O B : Type} [SceneVectors A S] (R : Rules A S O) :
    Script (Call O S) (Reply S) B → Author A S → Option (Option B × Author A S)
  | .done b, a => some (some b, a)
  | .raise, a => some (none, a)
  | .call c k, a => (ask R c a).bind fun r => (k r.1).intended R r.2

/-! ## The three programs -/

section
variable {S : Type}

/-- `if the scene may be changed, and the index names an element, change that element` -/
def changeAt {A α : Type} (a : Author A S) (l : List α) (i : Int) (f : α → α) (put : List α → A) : Option (Reply S × Author A S) :=
  if a.phase.open then (place l i).map fun k => (.unit, { a with scene := put (l.modify k f) }) else none

/-- A scene of balls -/
structure BallScene (S : Type) where
  balls : List (BallView S)
  planes : List (BallPlane S)

instance : SceneVectors (BallScene S) S where
  q s := s.balls.flatMap fun b => [b.x, b.y]
  v s := s.balls.flatMap fun b => [b.vx, b.vy]
  setQ s k x := { s with balls := s.balls.modify (k / 2) fun b => if k % 2 = 0 then { b with x := x } else { b with y := x } }
  setV s k x := { s with balls := s.balls.modify (k / 2) fun b => if k % 2 = 0 then { b with vx := x } else { b with vy := x } }

/-- What the calls of `balls2d` mean -/
def ballRules [One S] [Div S] [Zero S] [LE S] [DecidableLE S] : Rules (BallScene S) S (BallCall S) where
  arrays := true
  own
    | .insertBall x y vx vy r m fixed, a =>
      if a.phase.open ∧ ¬ r ≤ 0 ∧ ¬ m ≤ 0 ∧ (fixed = 0 ∨ fixed = 1) then
        some (.unit, { a with
          scene := { a.scene with balls := a.scene.balls ++ [{ x := x, y := y, vx := vx, vy := vy, r := r, mass := (m, m), invMass := (1 / m, 1 / m)
                                                               fixed := decide (fixed = 1) }] }
          stateTag := a.stateTag + 1 })
      else none
    | .numStaticPlanes, a => if a.phase.open then some (.count a.scene.planes.length, a) else none
    | .setStaticPlanePosition i x y, a => changeAt a a.scene.planes i (fun p => { p with x := ⟨x, y⟩ }) fun l => { a.scene with planes := l }
    | .setStaticPlaneVelocity i x y, a => changeAt a a.scene.planes i (fun p => { p with v := ⟨x, y⟩ }) fun l => { a.scene with planes := l }
    | .deleteStaticPlane i, a =>
      if a.phase.open then (place a.scene.planes i).map fun k => (.unit, { a with scene := { a.scene with planes := a.scene.planes.eraseIdx k } })
      else none

/-- A scene of rigid bodies in the plane -/
structure BodyScene (S G : Type) where
  world : World S G
  planes : List (BodyPlane S)

/-- `rigidbody2d` lends no arrays -/
instance {G : Type} : SceneVectors (BodyScene S G) S where
  q _ := []
  v _ := []
  setQ s _ _ := s
  setV s _ _ := s

/-- A call that edits the bodies: its meaning is that of the edit -/
def editScene {G : Type} [HasNaN S] [One S] [Div S] [Zero S] [LE S] [DecidableLE S] (circle : S → G) (massInertia : G → S → S × S) (op : EditOp S) (tags : Nat)
    (a : Author (BodyScene S G) S) : Option (Reply S × Author (BodyScene S G) S) :=
  if a.phase.open then
    (a.scene.world.step circle massInertia op).map fun w => (.unit, { a with scene := { a.scene with world := w }, stateTag := a.stateTag + tags })
  else none

/-- What the calls of `rigidbody2d` mean. Setting a normal to zero is not allowed. -/
def bodyRules {G : Type} [HasNaN S] [Neg S] [One S] [Div S] [Zero S] [LE S] [DecidableLE S] [DecidableEq S] (normalized : V2 S → V2 S) (circle : S → G)
    (massInertia : G → S → S × S) : Rules (BodyScene S G) S (BodyCall S) where
  arrays := false
  own
    | .numStaticPlanes, a => if a.phase.open then some (.count a.scene.planes.length, a) else none
    | .setStaticPlanePosition i x y, a => changeAt a a.scene.planes i (fun p => { p with x := ⟨x, y⟩ }) fun l => { a.scene with planes := l }
    | .setStaticPlaneVelocity i x y, a => changeAt a a.scene.planes i (fun p => { p with v := ⟨x, y⟩ }) fun l => { a.scene with planes := l }
    | .setStaticPlaneNormal i x y, a =>
      if x = 0 ∧ y = 0 then none else
        changeAt a a.scene.planes i (fun p => { p with n := normalized ⟨x, y⟩, t := ⟨-(normalized ⟨x, y⟩).y, (normalized ⟨x, y⟩).x⟩ })
          fun l => { a.scene with planes := l }
    | .setStaticPlaneAngularVelocity i o, a => changeAt a a.scene.planes i (fun p => { p with omega := o }) fun l => { a.scene with planes := l }
    | .deleteStaticPlane i, a =>
      if a.phase.open then (place a.scene.planes i).map fun k => (.unit, { a with scene := { a.scene with planes := a.scene.planes.eraseIdx k } })
      else none
    | .numBodies, a => if a.phase.open then some (.count a.scene.world.bodies.length, a) else none
    | .numGeometryInstances, a => if a.phase.open then some (.count a.scene.world.geometries.length, a) else none
    | .addCircleGeometry r, a => editScene circle massInertia (.addCircle r) 0 a
    | .addBody x y theta vx vy omega rho g f, a => editScene circle massInertia (.addBody x y theta vx vy omega rho g f) 1 a
    | .deleteBodies is, a => editScene circle massInertia (.deleteBodies is) 1 a
    | .deleteGeometry is, a => editScene circle massInertia (.deleteGeometry is) 0 a

/-- A scene of rigid bodies in space, as far as scripts see it -/
structure SpaceScene (S Q : Type) where
  q : List S
  v : List S
  planes : List (SpacePlane S Q)
  cylinders : List (SpaceCylinder S)
  gravities : List (Triple S)

instance {Q : Type} : SceneVectors (SpaceScene S Q) S where
  q s := s.q
  v s := s.v
  setQ s k x := { s with q := s.q.set k x }
  setV s k x := { s with v := s.v.set k x }

/-- What the calls of `rigidbody3d` mean. The axis of a cylinder must have unit length (within a tolerance). The number of the first step can be set before the
simulation starts. -/
def spaceRules {Q : Type} (unit : Triple S → Bool) (normalized : Triple S → Triple S) : Rules (SpaceScene S Q) S (SpaceCall S) where
  arrays := true
  own
    | .numStaticPlanes, a => if a.phase.open then some (.count a.scene.planes.length, a) else none
    | .setStaticPlanePosition i x, a => changeAt a a.scene.planes i (fun p => { p with x := x }) fun l => { a.scene with planes := l }
    | .setStaticPlaneVelocity i v, a => changeAt a a.scene.planes i (fun p => { p with v := v }) fun l => { a.scene with planes := l }
    | .numStaticCylinders, a => if a.phase.open then some (.count a.scene.cylinders.length, a) else none
    | .setStaticCylinderOrientation i axis theta, a =>
      if unit axis then
        changeAt a a.scene.cylinders i (fun c => { c with n := normalized axis, theta := theta }) fun l => { a.scene with cylinders := l }
      else none
    | .setStaticCylinderAngularVelocity i o, a =>
      changeAt a a.scene.cylinders i (fun c => { c with omega := o }) fun l => { a.scene with cylinders := l }
    | .numForces, a => if a.phase.open then some (.count a.scene.gravities.length, a) else none
    | .forceType i, a => if a.phase.open then (place a.scene.gravities i).map fun _ => (.name "near_earth_gravity", a) else none
    | .setGravityForce i g, a => changeAt a a.scene.gravities i (fun _ => g) fun l => { a.scene with gravities := l }
    | .setInitialIterate n, a =>
      match a.phase with
      | .simStart => if 0 ≤ n ∧ n < 4294967296 then some (.unit, { a with iterate := n.toNat }) else none
      | _ => none

end

/-! ## When the picture is right -/

/-- The program's balls and planes are those of the scene -/
structure BallWorld.Shows {S : Type} (w : BallWorld S) (s : BallScene S) : Prop where
  consistent : w.balls.Consistent
  balls : w.balls.balls = s.balls
  planes : w.planes = s.planes

/-- The program's bodies, geometries and planes are those of the scene -/
structure BodyWorld.Shows {S G : Type} [HasNaN S] (w : BodyWorld S G) (s : BodyScene S G) : Prop where
  bodies : w.bodies.Holds s.world
  planes : w.planes = s.planes

/-- The program's configuration, velocity, planes, cylinders and forces are those of the scene -/
structure SpaceWorld.Shows {S Q : Type} (w : SpaceWorld S Q) (s : SpaceScene S Q) : Prop where
  q : w.q.toList = s.q
  v : w.v.toList = s.v
  planes : w.planes = s.planes
  cylinders : w.cylinders = s.cylinders
  forces : w.forces = s.gravities

/-- The static variables say what the author's picture says -/
def Phase.Set {W S : Type} (m : Machine W S) : Phase S → Prop
  | .simStart => m.hasState = true ∧ m.hasIterate = true
  | .step n dt => m.hasState = true ∧ m.timestep = some dt ∧ m.nextIteration = n
  | .simEnd => m.hasState = true
  | .friction c l => m.active = some c ∧ m.mu = some l
  | .restitution c l => m.active = some c ∧ m.cor = some l

/-- The author's picture is right -/
structure Agrees {W A S : Type} (shows_ : W → A → Prop) (m : Machine W S) (a : Author A S) : Prop where
  scene : shows_ m.world a.scene
  iterate : m.iterate = a.iterate
  stateTag : m.stateClock = a.stateTag
  coefTag : m.coefClock = a.coefTag
  phase : a.phase.Set m

/-! ## The callbacks of a run -/

/-- The kinds of step a scene can ask for -/
inductive StepKind where
  | nothing | free | impact | friction
deriving DecidableEq

/-- Which kind of step is taken depends on the solvers of the scene only -/
def stepKind {Sim : Type} (i : StepInput Sim) : StepKind :=
  if i.integrator = .null then .nothing
  else if i.frictionSolver ≠ .null then .friction
  else if i.impactOp ≠ .null then .impact
  else .free

/-- The callbacks of step `n`: one at its start and one at its end; between them the coefficients are asked for, if there are contacts -/
inductive StepCallbacks {S : Type} (n : Nat) (dt : S) : StepKind → List (Callback S) → Prop
  | nothing : StepCallbacks n dt .nothing []
  | free : StepCallbacks n dt .free [.startOfStep n dt, .endOfStep n dt]
  | impactApart : StepCallbacks n dt .impact [.startOfStep n dt, .endOfStep n dt]
  | impact (c : Nat) (h : 0 < c) : StepCallbacks n dt .impact [.startOfStep n dt, .restitutionCoefficient c, .endOfStep n dt]
  | frictionApart : StepCallbacks n dt .friction [.startOfStep n dt, .endOfStep n dt]
  | friction (c : Nat) (h : 0 < c) :
    StepCallbacks n dt .friction [.startOfStep n dt, .frictionCoefficient c, .restitutionCoefficient c, .endOfStep n dt]

/-- Whether the module defines the function -/
def Module.defines {O S M : Type} (mod : Module O S M) : Callback S → Bool
  | .startOfSim => mod.startOfSim.isSome
  | .endOfSim => mod.endOfSim.isSome
  | .startOfStep _ _ => mod.startOfStep.isSome
  | .endOfStep _ _ => mod.endOfStep.isSome
  | .frictionCoefficient _ => mod.frictionCoefficient.isSome
  | .restitutionCoefficient _ => mod.restitutionCoefficient.isSome

/-- The callbacks of `count` steps numbered `first`, `first + 1`, …, one after the other -/
inductive StepsCallbacks {S : Type} (dt : S) (k : StepKind) : (first count : Nat) → List (Callback S) → Prop
  | none (first : Nat) : StepsCallbacks dt k first 0 []
  | step (first count : Nat) (block rest : List (Callback S)) (h : StepCallbacks first dt k block) (hr : StepsCallbacks dt k (first + 1) count rest) :
    StepsCallbacks dt k first (count + 1) (block ++ rest)

/-! ## Whole steps as the author of a script sees them -/

/-- What a function of the module does to its memory and to the author's picture: nothing if the module does not define it -/
def Acts {A S O M : Type} [SceneVectors A S] (R : Rules A S O) (f : Option (M → Script (Call O S) (Reply S) M)) (mem : M) (a : Author A S) (mem' : M)
    (a' : Author A S) : Prop :=
  match f with
  | none => mem' = mem ∧ a' = a
  | some f => (f mem).intended R a = some (some mem', a')

/-- Between callbacks the running program is where the author believes it to be -/
structure Follows {W A S M : Type} (shows_ : W → A → Prop) (x : Live W S M) (mem : M) (a : Author A S) : Prop where
  scene : shows_ x.machine.world a.scene
  iterate : x.machine.iterate = a.iterate
  stateTag : x.machine.stateClock = a.stateTag
  coefTag : x.machine.coefClock = a.coefTag
  memory : x.memory = mem

/-- After the simulation has moved on: a new scene, and arrays obtained before are not valid any more -/
def Author.moved {A S : Type} (a : Author A S) (s : A) : Author A S := { a with scene := s, stateTag := a.stateTag + 1 }

/-- After a function for coefficients has returned: its array is not valid any more -/
def Author.answered {A S F : Type} (a : Author A S) (f : Option F) : Author A S := { a with coefTag := a.coefTag + if f.isSome then 1 else 0 }

end Scisim.Scripting
