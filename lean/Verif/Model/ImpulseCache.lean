import Verif.Model.Codec
/-!
# Impulse caches

`std::map<std::pair<unsigned,unsigned>,VectorXs>` is a list of entries in increasing key order.
-/

namespace Scisim

abbrev Key := UInt32 × UInt32

/-- `std::less<std::pair<unsigned,unsigned>>`: lexicographic order. -/
def Key.lt (a b : Key) : Prop := a.1.toNat < b.1.toNat ∨ (a.1.toNat = b.1.toNat ∧ a.2.toNat < b.2.toNat)

instance (a b : Key) : Decidable (Key.lt a b) := by unfold Key.lt; infer_instance

/-- A `VectorXs` impulse. -/
abbrev Impulse := List F64

abbrev ImpulseMap := List (Key × Impulse)

/-- `std::map::insert`: an entry with an equal key is kept and the new one dropped. -/
def ImpulseMap.insert (m : ImpulseMap) (k : Key) (r : Impulse) : ImpulseMap :=
  match m with
  | [] => [(k, r)]
  | (k', r') :: m =>
    if Key.lt k k' then (k, r) :: (k', r') :: m
    else if Key.lt k' k then (k', r') :: ImpulseMap.insert m k r
    else (k', r') :: m

/-- `std::map::find`. -/
def ImpulseMap.find (m : ImpulseMap) (k : Key) : Option Impulse :=
  match m with
  | [] => none
  | (k', r') :: m => if k' = k then some r' else ImpulseMap.find m k

/-- ball2d/ConstraintCache.cpp:130-135 (identical code in rigidbody2d/ConstraintCache.cpp:145-150): one entry. -/
def serEntry (e : Key × Impulse) : Bytes := serPod e.1.1 ++ (serPod e.1.2 ++ serVecX e.2)

/-- ball2d/ConstraintCache.cpp:125-136 `serializeCache` (identical in rigidbody2d/ConstraintCache.cpp:140-151). -/
def serMap (m : ImpulseMap) : Bytes := serLen m.length ++ m.flatMap serEntry

/-- ball2d/ConstraintCache.cpp:143-153: the reading loop, inserting into the map. -/
def deEntries : Nat → ImpulseMap → Dec ImpulseMap
  | 0, m => pure m
  | n + 1, m => do
    let k0 ← dePod UInt32
    let k1 ← dePod UInt32
    let f ← deVecX F64
    deEntries n (m.insert (k0, k1) f)

/-- ball2d/ConstraintCache.cpp:138-154 `deserializeCache` into a cleared map (identical in
rigidbody2d/ConstraintCache.cpp:153-169).  The loop counter is `unsigned`, so a count of 2^32 or more never ends the loop:
it reads past the end of the file, i.e. uninitialised variables. -/
def deMap : Dec ImpulseMap := do
  let n ← deLen
  if n < 4294967296 then deEntries n [] else Dec.ub

/-! ## 2D balls -/

/-- A contact of the 2D ball simulation, by the name the cache dispatches on and the indices it is keyed by. `other` is any
constraint with another `name()` (teleported ball-ball, kinematic kick). -/
inductive BallContact where
  /-- `ball_ball`: `idx0()`, `idx1()` -/
  | ballBall (i j : UInt32)
  /-- `static_plane_constraint`: `planeIdx()`, `ballIdx()` -/
  | planeBall (plane ball : UInt32)
  /-- `static_drum_constraint`: `drumIdx()`, `ballIdx()` -/
  | drumBall (drum ball : UInt32)
  | other
deriving DecidableEq

/-- ball2d/ConstraintCache.h:28-30 -/
structure BallCache where
  ballBall : ImpulseMap
  planeBall : ImpulseMap
  drumBall : ImpulseMap
deriving DecidableEq

/-- ball2d/ConstraintCache.cpp:59-64 `clear`; also the state of a new cache. -/
def BallCache.clear : BallCache := ⟨[], [], []⟩

/-- ball2d/ConstraintCache.cpp:66-69 `empty` -/
def BallCache.empty (c : BallCache) : Bool := c.ballBall.isEmpty && c.planeBall.isEmpty && c.drumBall.isEmpty

/-- ball2d/ConstraintCache.cpp:20-57 `cacheConstraint` -/
def BallCache.store (c : BallCache) (con : BallContact) (r : Impulse) : Outcome BallCache :=
  match con with
  | .ballBall i j => .ok { c with ballBall := c.ballBall.insert (i, j) r }
  | .planeBall p b => .ok { c with planeBall := c.planeBall.insert (p, b) r }
  | .drumBall d b => .ok { c with drumBall := c.drumBall.insert (d, b) r }
  | .other => .exit

/-- `r = found` or `r.setZero()` for a vector `r` of size `n` (ball2d/ConstraintCache.cpp:80-85, 121-122). -/
def orZero (n : Nat) : Option Impulse → Impulse
  | some r => r
  | none => List.replicate n ⟨0⟩

/-- ball2d/ConstraintCache.cpp:71-123 `getCachedConstraint( constraint, r )` for a vector `r` of size `n`. -/
def BallCache.get (c : BallCache) (con : BallContact) (n : Nat) : Outcome Impulse :=
  match con with
  | .ballBall i j => .ok (orZero n (c.ballBall.find (i, j)))
  | .planeBall p b => .ok (orZero n (c.planeBall.find (p, b)))
  | .drumBall d b => .ok (orZero n (c.drumBall.find (d, b)))
  | .other => .exit

/-- ball2d/ConstraintCache.cpp:156-162 -/
def serBallCache (c : BallCache) : Bytes := serMap c.ballBall ++ (serMap c.planeBall ++ serMap c.drumBall)

/-- ball2d/ConstraintCache.cpp:164-174 -/
def deBallCache : Dec BallCache := do
  let a ← deMap
  let b ← deMap
  let c ← deMap
  pure ⟨a, b, c⟩

/-! ## 2D rigid bodies -/

/-- A contact of the 2D rigid body simulation. `point` distinguishes the contact points of one pair of bodies
(box-box contacts can have two, rigidbody2d/BoxBoxTools.cpp); the cache never looks at it. -/
inductive RB2DContact where
  /-- `circle_circle`: `simulatedBody0()`, `simulatedBody1()` -/
  | circleCircle (i j : UInt32)
  /-- `body_body` -/
  | bodyBody (i j : UInt32) (point : Nat)
  /-- `kinematic_object_circle`: `body0()`, `body1()` -/
  | kinematicCircle (b0 b1 : UInt32)
  /-- `static_plane_circle`: `getStaticObjectIndex()`, `simulatedBody0()` -/
  | planeCircle (plane body : UInt32)
  /-- every other name, e.g. `static_plane_body` and the teleported contacts -/
  | other
deriving DecidableEq

/-- rigidbody2d/ConstraintCache.h:30-34 -/
structure RB2DCache where
  circleCircle : ImpulseMap
  bodyBody : ImpulseMap
  kinematicCircle : ImpulseMap
  planeCircle : ImpulseMap
deriving DecidableEq

/-- rigidbody2d/ConstraintCache.cpp:63-69 -/
def RB2DCache.clear : RB2DCache := ⟨[], [], [], []⟩

/-- rigidbody2d/ConstraintCache.cpp:38-39 `( std::min( body0, body1 ), std::max( body0, body1 ) )` -/
def sortedKey (a b : UInt32) : Key := if a ≤ b then (a, b) else (b, a)

/-- rigidbody2d/ConstraintCache.cpp:14-61 -/
def RB2DCache.store (c : RB2DCache) (con : RB2DContact) (r : Impulse) : Outcome RB2DCache :=
  match con with
  | .circleCircle i j => .ok { c with circleCircle := c.circleCircle.insert (i, j) r }
  | .bodyBody i j _ => .ok { c with bodyBody := c.bodyBody.insert (i, j) r }
  | .kinematicCircle a b => .ok { c with kinematicCircle := c.kinematicCircle.insert (sortedKey a b) r }
  | .planeCircle p b => .ok { c with planeCircle := c.planeCircle.insert (p, b) r }
  | .other => .exit

/-- rigidbody2d/ConstraintCache.cpp:76-138 -/
def RB2DCache.get (c : RB2DCache) (con : RB2DContact) (n : Nat) : Outcome Impulse :=
  match con with
  | .circleCircle i j => .ok (orZero n (c.circleCircle.find (i, j)))
  | .bodyBody i j _ => .ok (orZero n (c.bodyBody.find (i, j)))
  | .kinematicCircle a b => .ok (orZero n (c.kinematicCircle.find (sortedKey a b)))
  | .planeCircle p b => .ok (orZero n (c.planeCircle.find (p, b)))
  | .other => .exit

/-- rigidbody2d/ConstraintCache.cpp:171-178 -/
def serRB2DCache (c : RB2DCache) : Bytes :=
  serMap c.circleCircle ++ (serMap c.bodyBody ++ (serMap c.kinematicCircle ++ serMap c.planeCircle))

/-- rigidbody2d/ConstraintCache.cpp:180-192 -/
def deRB2DCache : Dec RB2DCache := do
  let a ← deMap
  let b ← deMap
  let c ← deMap
  let d ← deMap
  pure ⟨a, b, c, d⟩

/-! ## 3D rigid bodies -/

/-- A contact of the 3D rigid body simulation. -/
inductive RB3DContact where
  /-- `sphere_sphere`: `idx0()`, `idx1()` -/
  | sphereSphere (i j : UInt32)
  /-- `static_plane_sphere`: `planeIdx()`, `sphereIdx()` -/
  | planeSphere (plane sphere : UInt32)
  /-- `static_cylinder_sphere`: `cylinderIdx()`, `sphereIdx()` -/
  | cylinderSphere (cylinder sphere : UInt32)
  /-- `kinematic_sphere_sphere`: `kinematicIdx()`, `sphereIdx()` -/
  | kinematicSphere (kinematic sphere : UInt32)
  /-- every other name: contacts of boxes, meshes and staples, teleported contacts, … -/
  | other
deriving DecidableEq

/-- rigidbody3d/ConstraintCache.h:23-26 -/
structure RB3DCache where
  sphereSphere : ImpulseMap
  planeSphere : ImpulseMap
  cylinderSphere : ImpulseMap
  kinematicSphere : ImpulseMap
deriving DecidableEq

/-- rigidbody3d/ConstraintCache.cpp:75-81 `clear` -/
def RB3DCache.clear : RB3DCache := ⟨[], [], [], []⟩

/-- rigidbody3d/ConstraintCache.cpp:83-87 `empty` -/
def RB3DCache.empty (c : RB3DCache) : Bool :=
  c.sphereSphere.isEmpty && c.planeSphere.isEmpty && c.cylinderSphere.isEmpty && c.kinematicSphere.isEmpty

/-- rigidbody3d/ConstraintCache.cpp:14-73 `cacheConstraint` -/
def RB3DCache.store (c : RB3DCache) (con : RB3DContact) (r : Impulse) : Outcome RB3DCache :=
  match con with
  | .sphereSphere i j => .ok { c with sphereSphere := c.sphereSphere.insert (i, j) r }
  | .planeSphere p b => .ok { c with planeSphere := c.planeSphere.insert (p, b) r }
  | .cylinderSphere p b => .ok { c with cylinderSphere := c.cylinderSphere.insert (p, b) r }
  | .kinematicSphere k b => .ok { c with kinematicSphere := c.kinematicSphere.insert (k, b) r }
  | .other => .exit

/-- rigidbody3d/ConstraintCache.cpp:89-168 `getCachedConstraint` -/
def RB3DCache.get (c : RB3DCache) (con : RB3DContact) (n : Nat) : Outcome Impulse :=
  match con with
  | .sphereSphere i j => .ok (orZero n (c.sphereSphere.find (i, j)))
  | .planeSphere p b => .ok (orZero n (c.planeSphere.find (p, b)))
  | .cylinderSphere p b => .ok (orZero n (c.cylinderSphere.find (p, b)))
  | .kinematicSphere k b => .ok (orZero n (c.kinematicSphere.find (k, b)))
  | .other => .exit

/-- rigidbody3d/ConstraintCache.cpp:170-191 `serialize` -/
def serRB3DCache (c : RB3DCache) : Bytes :=
  serMap c.sphereSphere ++ (serMap c.planeSphere ++ (serMap c.cylinderSphere ++ serMap c.kinematicSphere))

/-- rigidbody3d/ConstraintCache.cpp:193-222 `deserialize` -/
def deRB3DCache : Dec RB3DCache := do
  let a ← deMap
  let b ← deMap
  let c ← deMap
  let d ← deMap
  pure ⟨a, b, c, d⟩

end Scisim
