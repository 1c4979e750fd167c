import Mathlib.Data.Rat.Defs
import Mathlib.Logic.Function.Basic
import Verif.Model.Outcome
/-!
# Copies of simulations

The copy constructors, assignments, swaps and destructors of the three kinds of simulation, and the `clone` functions of forces and shapes. Forces and shapes are objects in memory that a simulation reaches
through `std::unique_ptr`; everything else in a simulation is stored in it by value.

Simplified: an address is not used again after `delete`; no allocation fails; numbers are rationals and vectors and matrices lists of them; values of small classes with only defaulted copies (static planes,
drums, cylinders, portals) are lists of numbers; a state that was moved from keeps its values, except that its vectors of pointers are empty (nothing reads these values).
-/

namespace Scisim.Copies

/-- `VectorXs` and the like -/
abbrev Vec := List ℚ

/-- `std::vector` of a class of numbers -/
abbrev Items := List Vec

/-- The members of `RigidBodyTriangleMesh`, rigidbody3d/Geometry/RigidBodyTriangleMesh.h:61-82 -/
structure Mesh where
  input_file_name : String
  verts : Items
  faces : List (List ℕ)
  volume : ℚ
  I_on_rho : Vec
  center_of_mass : Vec
  R : Items
  samples : Items
  convex_hull_samples : Items
  cell_delta : Vec
  grid_dimensions : List ℕ
  grid_origin : Vec
  signed_distance : Vec
  grid_end : Vec
deriving DecidableEq

/-- The members of `RigidBodyStaple`, rigidbody3d/Geometry/RigidBodyStaple.h -/
structure Staple where
  w : ℚ
  l : ℚ
  r : ℚ
  p : Items
deriving DecidableEq

/-- Objects behind pointers, by class, with their members: ball2d/Forces/Ball2DGravityForce.h:32, ball2d/Forces/PenaltyForce.h:32-33, rigidbody2d/NearEarthGravityForce.h:32, rigidbody2d/CircleGeometry.h:37,
rigidbody2d/BoxGeometry.h:37, rigidbody3d/Forces/NearEarthGravityForce.h:36, rigidbody3d/Geometry/RigidBodySphere.h:38, RigidBodyBox.h:40 -/
inductive Obj where
  | ballGravity (g : Vec)
  | penalty (k power : ℚ)
  | gravity2d (g : Vec)
  | circle (r : ℚ)
  | box2d (r : Vec)
  | gravity3d (g : Vec)
  | sphere (r : ℚ)
  | box3d (halfWidths : Vec)
  | staple (s : Staple)
  | mesh (m : Mesh)
deriving DecidableEq

/-- `PenaltyForce::PenaltyForce( k, power )`, ball2d/Forces/PenaltyForce.cpp:11-16 -/
def makePenalty (k power : ℚ) : Obj := .penalty k power

/-- `RigidBodyStaple::clone`, rigidbody3d/Geometry/RigidBodyStaple.cpp:86-96 -/
def cloneStaple (this : Staple) : Staple :=
  let newStaple : Staple := ⟨0, 0, 0, []⟩
  let newStaple := { newStaple with w := this.w }
  let newStaple := { newStaple with l := this.l }
  let newStaple := { newStaple with r := this.r }
  let newStaple := { newStaple with p := this.p }
  newStaple

/-- `RigidBodyTriangleMesh::clone`, rigidbody3d/Geometry/RigidBodyTriangleMesh.cpp:167-185. The members of the new mesh that are not set yet hold anything; here zeros. -/
def cloneMesh (this : Mesh) : Mesh :=
  let otherMesh : Mesh := ⟨"", [], [], 0, [], [], [], [], [], [], [], [], [], []⟩
  let otherMesh := { otherMesh with input_file_name := this.input_file_name }
  let otherMesh := { otherMesh with verts := this.verts }
  let otherMesh := { otherMesh with faces := this.faces }
  let otherMesh := { otherMesh with volume := this.volume }
  let otherMesh := { otherMesh with I_on_rho := this.I_on_rho }
  let otherMesh := { otherMesh with center_of_mass := this.center_of_mass }
  let otherMesh := { otherMesh with R := this.R }
  let otherMesh := { otherMesh with samples := this.samples }
  let otherMesh := { otherMesh with convex_hull_samples := this.convex_hull_samples }
  let otherMesh := { otherMesh with cell_delta := this.cell_delta }
  let otherMesh := { otherMesh with grid_dimensions := this.grid_dimensions }
  let otherMesh := { otherMesh with grid_origin := this.grid_origin }
  let otherMesh := { otherMesh with signed_distance := this.signed_distance }
  let otherMesh := { otherMesh with grid_end := this.grid_end }
  otherMesh

/-- What `new` in `clone` makes: ball2d/Forces/Ball2DGravityForce.cpp:48-51, ball2d/Forces/PenaltyForce.cpp:95-98, rigidbody2d/NearEarthGravityForce.cpp:50-53, rigidbody2d/CircleGeometry.cpp:27-30,
rigidbody2d/BoxGeometry.cpp:27-30, rigidbody3d/Forces/NearEarthGravityForce.cpp:60-63, rigidbody3d/Geometry/RigidBodySphere.cpp:40-43, RigidBodyBox.cpp:40-43, RigidBodyStaple.cpp, RigidBodyTriangleMesh.cpp -/
def Obj.clone : Obj → Obj
  | .ballGravity g => .ballGravity g
  | .penalty k power => makePenalty k power
  | .gravity2d g => .gravity2d g
  | .circle r => .circle r
  | .box2d r => .box2d r
  | .gravity3d g => .gravity3d g
  | .sphere r => .sphere r
  | .box3d h => .box3d h
  | .staple s => .staple (cloneStaple s)
  | .mesh m => .mesh (cloneMesh m)

/-- `std::unique_ptr`: null or an address -/
abbrev Ptr := Option ℕ

/-- Memory: the objects that exist, by address, and the next address -/
structure Mem where
  objs : ℕ → Option Obj
  next : ℕ

/-- Nothing allocated -/
def Mem.start : Mem := ⟨fun _ => none, 0⟩

/-- `new` -/
def Mem.new (o : Obj) (m : Mem) : Ptr × Mem := (some m.next, ⟨Function.update m.objs m.next (some o), m.next + 1⟩)

/-- `*p` -/
def Mem.deref (m : Mem) : Ptr → Outcome Obj
  | none => .ub
  | some a => match m.objs a with
    | none => .ub
    | some o => .ok o

/-- `*p = o` -/
def Mem.store (m : Mem) (p : Ptr) (o : Obj) : Outcome Mem :=
  match p with
  | none => .ub
  | some a => match m.objs a with
    | none => .ub
    | some _ => .ok { m with objs := Function.update m.objs a (some o) }

/-- `~unique_ptr()`: `delete` unless null -/
def Mem.delete (m : Mem) : Ptr → Outcome Mem
  | none => .ok m
  | some a => match m.objs a with
    | none => .ub
    | some _ => .ok { m with objs := Function.update m.objs a none }

/-- `~vector<unique_ptr>()`, and `clear()` -/
def deleteAll : List Ptr → Mem → Outcome Mem
  | [], m => .ok m
  | p :: ps, m => (m.delete p).bind (deleteAll ps)

/-- `Utilities::clone`, scisim/Utilities.h:27-40. The C++ code fills a vector of the right length by index. -/
def cloneAll : List Ptr → Mem → Outcome (List Ptr × Mem)
  | [], m => .ok ([], m)
  | p :: ps, m =>
    (m.deref p).bind fun o =>
    let (p', m) := m.new o.clone
    (cloneAll ps m).bind fun (ps', m) =>
    .ok (p' :: ps', m)

/-- `Ball2DState`, ball2d/Ball2DState.h:70-84. `P` is `Ptr`, or `Obj` for what a user sees. -/
structure Ball2DState (P : Type) where
  q : Vec
  v : Vec
  r : Vec
  fixed : List Bool
  M : Items
  Minv : Items
  static_drums : Items
  static_planes : Items
  planar_portals : Items
  forces : List P
deriving DecidableEq

/-- `Ball2DState::Ball2DState( const Ball2DState& )`, ball2d/Ball2DState.cpp:19-30 -/
def Ball2DState.copy (other : Ball2DState Ptr) (m : Mem) : Outcome (Ball2DState Ptr × Mem) :=
  (cloneAll other.forces m).bind fun (forces, m) =>
  .ok (⟨other.q, other.v, other.r, other.fixed, other.M, other.Minv, other.static_drums, other.static_planes, other.planar_portals, forces⟩, m)

/-- `RigidBody2DState`, rigidbody2d/RigidBody2DState.h:91-101 -/
structure RigidBody2DState (P : Type) where
  q : Vec
  v : Vec
  M : Items
  Minv : Items
  fixed : List Bool
  geometry_indices : List ℕ
  geometry : List P
  forces : List P
  planes : Items
  planar_portals : Items
deriving DecidableEq

/-- `RigidBody2DState::RigidBody2DState( const RigidBody2DState& )`, rigidbody2d/RigidBody2DState.cpp:99-114 -/
def RigidBody2DState.copy (rhs : RigidBody2DState Ptr) (m : Mem) : Outcome (RigidBody2DState Ptr × Mem) :=
  (cloneAll rhs.geometry m).bind fun (geometry, m) =>
  (cloneAll rhs.forces m).bind fun (forces, m) =>
  .ok (⟨rhs.q, rhs.v, rhs.M, rhs.Minv, rhs.fixed, rhs.geometry_indices, geometry, forces, rhs.planes, rhs.planar_portals⟩, m)

/-- `RigidBody3DState`, rigidbody3d/RigidBody3DState.h:115-132; the boundary behaviour by its number -/
structure RigidBody3DState (P : Type) where
  nbodies : ℕ
  q : Vec
  v : Vec
  M0 : Items
  Minv0 : Items
  M : Items
  Minv : Items
  fixed : List Bool
  geometry : List P
  geometry_indices : List ℕ
  forces : List P
  static_planes : Items
  static_cylinders : Items
  planar_portals : Items
  boundary_behavior : ℕ
  boundary_min : Vec
  boundary_max : Vec
deriving DecidableEq

/-- `RigidBody3DState::RigidBody3DState( const RigidBody3DState& )`, rigidbody3d/RigidBody3DState.cpp:42-60 -/
def RigidBody3DState.copy (other : RigidBody3DState Ptr) (m : Mem) : Outcome (RigidBody3DState Ptr × Mem) :=
  (cloneAll other.geometry m).bind fun (geometry, m) =>
  (cloneAll other.forces m).bind fun (forces, m) =>
  .ok (⟨other.nbodies, other.q, other.v, other.M0, other.Minv0, other.M, other.Minv, other.fixed, geometry, other.geometry_indices, forces, other.static_planes, other.static_cylinders, other.planar_portals,
    other.boundary_behavior, other.boundary_min, other.boundary_max⟩, m)

/-- What the rest needs to know about a class of states: how to take it apart into values, shapes and forces and how to put it together, whether it has shapes at all, a state without bodies, and the copy
constructor -/
structure Class (σ : Type → Type) where
  plain : {P : Type} → σ P → σ Empty
  geometry : {P : Type} → σ P → List P
  forces : {P : Type} → σ P → List P
  make : {P : Type} → σ Empty → List P → List P → σ P
  geometric : Bool
  init : σ Empty
  copy : σ Ptr → Mem → Outcome (σ Ptr × Mem)

/-- ball2d/Ball2DState.h:22-29 -/
def ball2d : Class Ball2DState where
  plain s := ⟨s.q, s.v, s.r, s.fixed, s.M, s.Minv, s.static_drums, s.static_planes, s.planar_portals, []⟩
  geometry _ := []
  forces s := s.forces
  make s _ forces := ⟨s.q, s.v, s.r, s.fixed, s.M, s.Minv, s.static_drums, s.static_planes, s.planar_portals, forces⟩
  geometric := false
  init := ⟨[], [], [], [], [], [], [], [], [], []⟩
  copy := Ball2DState.copy

/-- rigidbody2d/RigidBody2DState.h:20-29 -/
def rigidBody2d : Class RigidBody2DState where
  plain s := ⟨s.q, s.v, s.M, s.Minv, s.fixed, s.geometry_indices, [], [], s.planes, s.planar_portals⟩
  geometry s := s.geometry
  forces s := s.forces
  make s geometry forces := ⟨s.q, s.v, s.M, s.Minv, s.fixed, s.geometry_indices, geometry, forces, s.planes, s.planar_portals⟩
  geometric := true
  init := ⟨[], [], [], [], [], [], [], [], [], []⟩
  copy := RigidBody2DState.copy

/-- rigidbody3d/RigidBody3DState.h:28-34, RigidBody3DState.cpp:22-40. The limits of the default boundary, which are not used as it does nothing, are left out. -/
def rigidBody3d : Class RigidBody3DState where
  plain s := ⟨s.nbodies, s.q, s.v, s.M0, s.Minv0, s.M, s.Minv, s.fixed, [], s.geometry_indices, [], s.static_planes, s.static_cylinders, s.planar_portals, s.boundary_behavior, s.boundary_min, s.boundary_max⟩
  geometry s := s.geometry
  forces s := s.forces
  make s geometry forces := ⟨s.nbodies, s.q, s.v, s.M0, s.Minv0, s.M, s.Minv, s.fixed, geometry, s.geometry_indices, forces, s.static_planes, s.static_cylinders, s.planar_portals, s.boundary_behavior,
    s.boundary_min, s.boundary_max⟩
  geometric := true
  init := ⟨0, [], [], [], [], [], [], [], [], [], [], [], [], [], 0, [], []⟩
  copy := RigidBody3DState.copy

/-- What a simulation has besides its state: the cached impulses (ball2d/ConstraintCache.h:28-30, rigidbody2d/ConstraintCache.h:28-32, rigidbody3d/ConstraintCache.h:23-26) and, in 3D, an `ImpactMap`
(scisim/ConstrainedMaps/ImpactMaps/ImpactMap.h:39-44; the raw pointer in it is to a local variable of a step and is a number here) -/
structure Rest where
  cache : List (List ((ℕ × ℕ) × Vec))
  warm_start : Bool
  write_constraint_forces : Bool
  impact_solution : ℕ
deriving DecidableEq

/-- As constructed -/
def Rest.init : Rest := ⟨[], false, false, 0⟩

/-- A simulation: ball2d/Ball2DSim.h:111-112, rigidbody2d/RigidBody2DSim.h:118-119, rigidbody3d/RigidBody3DSim.h:148-150 -/
structure Sim (σ : Type → Type) (P : Type) where
  state : σ P
  rest : Rest

section

variable {σ : Type → Type} (c : Class σ)

/-- The destructors of the three states, which are defaulted: members in reverse order -/
def destroyState (s : σ Ptr) (m : Mem) : Outcome Mem := (deleteAll (c.forces s) m).bind (deleteAll (c.geometry s))

/-- What a defaulted move of a state leaves behind -/
def leftover (s : σ Ptr) : σ Ptr := c.make (c.plain s) [] []

/-- `this = std::move( other )`, defaulted: ball2d/Ball2DState.h:28, rigidbody2d/RigidBody2DState.h:27, rigidbody3d/RigidBody3DState.h:33. Returns `this` and `other`. -/
def moveAssign (this other : σ Ptr) (m : Mem) : Outcome ((σ Ptr × σ Ptr) × Mem) :=
  (destroyState c this m).bind fun m => .ok ((other, leftover c other), m)

/-- `std::swap( a, b )` of two states: a move construction, two move assignments and a destruction -/
def swapStates (a b : σ Ptr) (m : Mem) : Outcome ((σ Ptr × σ Ptr) × Mem) :=
  let (tmp, a) := (a, leftover c a)
  (moveAssign c a b m).bind fun ((a, b), m) =>
  (moveAssign c b tmp m).bind fun ((b, tmp), m) =>
  (destroyState c tmp m).bind fun m =>
  .ok ((a, b), m)

/-- `operator=( const ...& )` of the three states: ball2d/Ball2DState.cpp:32-38, rigidbody2d/RigidBody2DState.cpp:116-122, rigidbody3d/RigidBody3DState.cpp:62-68 -/
def assignState (this other : σ Ptr) (m : Mem) : Outcome (σ Ptr × Mem) :=
  (c.copy other m).bind fun (copy, m) =>
  (swapStates c this copy m).bind fun ((this, copy), m) =>
  (destroyState c copy m).bind fun m =>
  .ok (this, m)

/-- The copy constructors of the simulations, which are defaulted: ball2d/Ball2DSim.h:32, rigidbody2d/RigidBody2DSim.h:30, rigidbody3d/RigidBody3DSim.h:40 -/
def copySim (other : Sim σ Ptr) (m : Mem) : Outcome (Sim σ Ptr × Mem) :=
  (c.copy other.state m).bind fun (state, m) => .ok (⟨state, other.rest⟩, m)

/-- The assignments of the simulations, which are defaulted: ball2d/Ball2DSim.h:33, rigidbody2d/RigidBody2DSim.h:32, rigidbody3d/RigidBody3DSim.h:42 -/
def assignSim (this other : Sim σ Ptr) (m : Mem) : Outcome (Sim σ Ptr × Mem) :=
  (assignState c this.state other.state m).bind fun (state, m) => .ok (⟨state, other.rest⟩, m)

end

/-- The two vectors of pointers -/
inductive Slot where
  | geometry | forces
deriving DecidableEq

/-- What a program does with its simulations, which have names (numbers) -/
inductive Op (σ : Type → Type) where
  /-- a new simulation without bodies -/
  | create (i : ℕ)
  /-- `Sim i{ j };` -/
  | copy (i j : ℕ)
  /-- `i = j;` as in ball2dqt4/GLWidget.cpp:202 and 392, rigidbody2dqt4/GLWidget.cpp:289 and 451, rigidbody3dqt4/GLWidget.cpp:270 and 483 -/
  | assign (i j : ℕ)
  /-- `swap( i.state(), j.state() );` as when a scene is opened, ball2dqt4/GLWidget.cpp:197-198 -/
  | swap (i j : ℕ)
  /-- the end of a simulation's life -/
  | destroy (i : ℕ)
  /-- any change of the values in a state: a step, a script -/
  | edit (i : ℕ) (f : σ Empty → σ Empty)
  /-- any change of the rest -/
  | editRest (i : ℕ) (f : Rest → Rest)
  /-- a new force or shape that is a clone of a given one, `addForce`, rigidbody3d/RigidBody3DState.cpp:474-477, or a new one, rigidbody2d/RigidBody2DState.cpp:407 -/
  | add (i : ℕ) (slot : Slot) (o : Obj)
  /-- any change of a force or shape -/
  | change (i : ℕ) (slot : Slot) (k : ℕ) (f : Obj → Obj)
  /-- one shape goes, rigidbody2d/RigidBody2DState.cpp:375-390 -/
  | remove (i : ℕ) (slot : Slot) (k : ℕ)
  /-- all go, as when a state is read again, rigidbody2d/RigidBody2DState.cpp:502 -/
  | clear (i : ℕ) (slot : Slot)

/-- The simulations and the memory -/
structure World (σ : Type → Type) where
  sims : ℕ → Option (Sim σ Ptr)
  mem : Mem

/-- The start -/
def World.start (σ : Type → Type) : World σ := ⟨fun _ => none, .start⟩

section

variable {σ : Type → Type} (c : Class σ)

/-- The pointers in a slot -/
def slotOf {P : Type} (slot : Slot) (s : σ P) : List P :=
  match slot with
  | .geometry => c.geometry s
  | .forces => c.forces s

/-- Other pointers in a slot -/
def setSlot {P : Type} (slot : Slot) (s : σ P) (ps : List P) : σ P :=
  match slot with
  | .geometry => c.make (c.plain s) ps (c.forces s)
  | .forces => c.make (c.plain s) (c.geometry s) ps

/-- The slots that a class has -/
def hasSlot : Slot → Bool
  | .geometry => c.geometric
  | .forces => true

/-- A simulation that must exist; without it there is no such program (`fail`) -/
def lookup (w : World σ) (i : ℕ) : Outcome (Sim σ Ptr) :=
  match w.sims i with
  | none => .fail
  | some x => .ok x

/-- One thing a program does -/
def step (w : World σ) : Op σ → Outcome (World σ)
  | .create i => if (w.sims i).isSome then .fail else .ok { w with sims := Function.update w.sims i (some ⟨c.make c.init [] [], .init⟩) }
  | .copy i j =>
    if (w.sims i).isSome then .fail else
    (lookup w j).bind fun other =>
    (copySim c other w.mem).bind fun (x, m) =>
    .ok ⟨Function.update w.sims i (some x), m⟩
  | .assign i j =>
    (lookup w i).bind fun this =>
    (lookup w j).bind fun other =>
    (assignSim c this other w.mem).bind fun (x, m) =>
    .ok ⟨Function.update w.sims i (some x), m⟩
  | .swap i j =>
    if i = j then .fail else
    (lookup w i).bind fun a =>
    (lookup w j).bind fun b =>
    (swapStates c a.state b.state w.mem).bind fun ((s, t), m) =>
    .ok ⟨Function.update (Function.update w.sims i (some { a with state := s })) j (some { b with state := t }), m⟩
  | .destroy i =>
    (lookup w i).bind fun x =>
    (destroyState c x.state w.mem).bind fun m =>
    .ok ⟨Function.update w.sims i none, m⟩
  | .edit i f =>
    (lookup w i).bind fun x =>
    .ok { w with sims := Function.update w.sims i (some { x with state := c.make (f (c.plain x.state)) (c.geometry x.state) (c.forces x.state) }) }
  | .editRest i f =>
    (lookup w i).bind fun x =>
    .ok { w with sims := Function.update w.sims i (some { x with rest := f x.rest }) }
  | .add i slot o =>
    if !hasSlot c slot then .fail else
    (lookup w i).bind fun x =>
    let (p, m) := w.mem.new o.clone
    .ok ⟨Function.update w.sims i (some { x with state := setSlot c slot x.state (slotOf c slot x.state ++ [p]) }), m⟩
  | .change i slot k f =>
    (lookup w i).bind fun x =>
    match (slotOf c slot x.state)[k]? with
    | none => .fail
    | some p =>
      (w.mem.deref p).bind fun o =>
      (w.mem.store p (f o)).bind fun m =>
      .ok { w with mem := m }
  | .remove i slot k =>
    (lookup w i).bind fun x =>
    match (slotOf c slot x.state)[k]? with
    | none => .fail
    | some p =>
      (w.mem.delete p).bind fun m =>
      .ok ⟨Function.update w.sims i (some { x with state := setSlot c slot x.state ((slotOf c slot x.state).eraseIdx k) }), m⟩
  | .clear i slot =>
    (lookup w i).bind fun x =>
    (deleteAll (slotOf c slot x.state) w.mem).bind fun m =>
    .ok ⟨Function.update w.sims i (some { x with state := setSlot c slot x.state [] }), m⟩

/-- A history -/
def run : World σ → List (Op σ) → Outcome (World σ)
  | w, [] => .ok w
  | w, op :: ops => (step c w op).bind fun w => run w ops

end

end Scisim.Copies
