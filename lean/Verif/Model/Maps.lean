import Verif.Model.Outcome
import Verif.Model.BallContacts
import Verif.Model.Dynamics
import Verif.Model.ImpulseCache
import Verif.Model.Rotations
/-!
# Contact-aware steps: the impact map and the three impact-friction maps

`scisim/ConstrainedMaps/ImpactMaps/ImpactMap.cpp`, `GeometricImpactFrictionMap.cpp`, `StabilizedImpactFrictionMap.cpp` and
`SymplecticEulerImpactFrictionMap.cpp`. The maps are written in terms of virtual functions of the system, the integrator and the solver; here these
are parameters: any functions of the arguments they are given. The types of configurations `Q`, velocities `V`, contacts `C`, impulse caches `K` and
impulse components `S` are arbitrary. Exporting forces, the debug checks and console output are left out; the call backs for the
coefficients of restitution and friction are part of the solver parameters.

Each map also returns a record of the contact problem it solved (`none` if there were no contacts), so that statements can speak about the
impulses a solver started from and ended with.
-/

namespace Scisim

/-- `ConstrainedSystem::clearConstraintCache`, `cacheConstraint`, `getCachedConstraintImpulse` (scisim/ConstrainedMaps/ConstrainedSystem.h). The last
argument of `get` is the size of the vector passed in. -/
structure CacheSys (C K S : Type) where
  clear : K
  store : K → C → List S → Outcome K
  get : K → C → Nat → Outcome (List S)

/-- `ImpulsesToCache`, scisim/ConstrainedMaps/ImpactFrictionMap.h -/
inductive ImpulsesToCache where
  | none
  | normal
  | normalAndFriction
deriving DecidableEq

/-- Normal and friction impulses, `alpha` and `beta`. -/
structure Impulses (S : Type) where
  alpha : List S
  beta : List S
deriving DecidableEq

/-- A contact problem: configuration and velocity at the start of the step, the contacts, the impulses the solver was started with and those it
returned. -/
structure SolveRecord (Q V C S : Type) where
  q : Q
  v : V
  contacts : List C
  start : Impulses S
  final : Impulses S

variable {Q V C K S P : Type}

/-- What persists between steps: configuration, velocity, impulse cache. -/
structure MapState (Q V K P : Type) where
  q : Q
  v : V
  cache : K
  /-- members of the map that persist (`m_f`) -/
  f : P

/-- `v( i )` for a `VectorXs`: out of range is undefined. -/
def entry (v : List S) (i : Nat) : Outcome S :=
  match v[i]? with
  | some x => .ok x
  | none => .ub

/-- A loop over the contacts that computes one value for each. -/
def forEach {B : Type} (f : C → Outcome B) : List C → Outcome (List B)
  | [] => .ok []
  | c :: cs => (f c).bind fun b => (forEach f cs).bind fun bs => .ok (b :: bs)

/-- A loop over the contacts that stores one vector for each; `vecs` are the vectors, in order. -/
def storeAll (cs : CacheSys C K S) : K → List C → List (List S) → Outcome K
  | k, [], _ => .ok k
  | _, _ :: _, [] => .ub
  | k, c :: rest, r :: rs => (cs.store k c r).bind fun k' => storeAll cs k' rest rs

/-- ImpactMap.cpp:82-91 (GeometricImpactFrictionMap.cpp:184-191, SymplecticEulerImpactFrictionMap.cpp:59-66): read the cached normal impulses -/
def decacheNormal (cs : CacheSys C K S) (k : K) (contacts : List C) : Outcome (List S) :=
  forEach (fun c => (cs.get k c 1).bind fun r => entry r 0) contacts

/-- ImpactMap.cpp:162-168 (GeometricImpactFrictionMap.cpp:232-239, SymplecticEulerImpactFrictionMap.cpp:145-152): store the normal impulses. Each is one entry
of `alpha`; a missing entry is read out of range. -/
def cacheNormal (cs : CacheSys C K S) (k : K) (contacts : List C) (alpha : List S) : Outcome K :=
  storeAll cs k contacts (alpha.map fun a => [a])

/-! ## Impacts without friction -/

/-- What `ImpactMap::flow` works with. `umap` is `UnconstrainedMap::flow` for an iteration; `imap` the impact operator (its result are the new
impulses); `respond q v contacts alpha` is `v + Minv * N * alpha`. -/
structure ImpactEnv (Q V C K S : Type) where
  cache : CacheSys C K S
  activeSet : Q → Q → V → Outcome (List C)
  umap : Nat → Q → V → Q × V
  imap : Q → V → List C → List S → Outcome (List S)
  respond : Q → V → List C → List S → V

/-- scisim/ConstrainedMaps/ImpactMaps/ImpactMap.cpp:51-188 `ImpactMap::flow` -/
def impactMapFlow [Zero S] (e : ImpactEnv Q V C K S) (warmStart : Bool) (iteration : Nat) (s : MapState Q V K Unit) :
    Outcome (MapState Q V K Unit × Option (SolveRecord Q V C S)) :=
  let q1v1 := e.umap iteration s.q s.v
  (e.activeSet s.q q1v1.1 s.v).bind fun contacts =>
  if contacts = [] then .ok (⟨q1v1.1, q1v1.2, e.cache.clear, ()⟩, none)
  else
    (if warmStart then decacheNormal e.cache s.cache contacts else .ok (contacts.map fun _ => 0)).bind fun alpha0 =>
    (e.imap s.q s.v contacts alpha0).bind fun alpha =>
    let v2 := e.respond s.q s.v contacts alpha
    (if warmStart then cacheNormal e.cache e.cache.clear contacts alpha else .ok e.cache.clear).bind fun cache =>
    let qv := e.umap iteration s.q v2
    .ok (⟨qv.1, qv.2, cache, ()⟩, some ⟨s.q, s.v, contacts, ⟨alpha0, []⟩, ⟨alpha, []⟩⟩)

/-! ## Impacts with friction -/

/-- What the impact-friction maps work with. `solve iteration q v vdelta contacts start f` is `FrictionSolver::solve` with everything it is given that is
the same in every call (masses, coefficients, contact bases, tolerances, pose stabilisation) built in; `vdelta` is the velocity change from which the
extra relative velocities are computed, if there are any. It returns the impulses, the velocity and the new friction impulse cache. `fit v f` is `f`, or zero if its
size does not match `v`. -/
structure FrictionEnv (Q V C K S P : Type) where
  cache : CacheSys C K S
  ambientDims : Nat
  impulsesPerNormal : Nat
  activeSet : Q → Q → V → Outcome (List C)
  umap : Nat → Q → V → Q × V
  solve : Nat → Q → V → Option V → List C → Impulses S → P → Outcome (Impulses S × V × P)
  fit : V → P → P
  /-- `FlowableSystem::linearInertialConfigurationUpdate` for the step size -/
  inertial : Q → V → Q
  /-- SymplecticEulerImpactFrictionMap.cpp:222-227: `dt * ( Minv * F )` with the forces on fixed bodies zeroed -/
  vdelta : Q → V → Outcome V
  /-- SymplecticEulerImpactFrictionMap.cpp:95-122: the three impulses from a cached vector, in the basis of the contact -/
  decache3 : Q → V → C → List S → Outcome (S × S × S)
  /-- SymplecticEulerImpactFrictionMap.cpp:180-190: the vector cached for three impulses -/
  encache3 : Q → V → C → S × S × S → List S

/-- `alpha.setZero(); beta.setZero();` -/
def zeroImpulses [Zero S] (e : FrictionEnv Q V C K S P) (contacts : List C) : Impulses S :=
  ⟨contacts.map fun _ => 0, List.replicate (e.impulsesPerNormal * contacts.length) 0⟩

/-- GeometricImpactFrictionMap.cpp:196-211, SymplecticEulerImpactFrictionMap.cpp:72-85: two cached numbers for each contact. `beta` has
`impulsesPerNormal` entries for each contact of which only the first `ncontacts` are set; the others are indeterminate. -/
def decachePairs (e : FrictionEnv Q V C K S P) (k : K) (contacts : List C) : Outcome (Impulses S) :=
  (forEach (fun c => (e.cache.get k c 2).bind fun r => (entry r 0).bind fun a => (entry r 1).bind fun b => .ok (a, b)) contacts).bind fun ab =>
  if e.impulsesPerNormal = 1 then .ok ⟨ab.map (·.1), ab.map (·.2)⟩ else .ub

/-- GeometricImpactFrictionMap.cpp:174-220 `initializeImpulses`: the initial impulses and the cache afterwards -/
def geometricInit [Zero S] (e : FrictionEnv Q V C K S P) (mode : ImpulsesToCache) (k : K) (contacts : List C) : Outcome (Impulses S × K) :=
  match mode with
  | .none => .ok (zeroImpulses e contacts, k)
  | .normal => (decacheNormal e.cache k contacts).bind fun alpha => .ok (⟨alpha, (zeroImpulses e contacts).beta⟩, e.cache.clear)
  | .normalAndFriction =>
    if e.ambientDims = 2 then (decachePairs e k contacts).bind fun i => .ok (i, e.cache.clear)
    else .exit

/-- The vectors `( alpha( i ), beta( i ) )` of GeometricImpactFrictionMap.cpp:245-253 -/
def pairVectors (i : Impulses S) : List (List S) := List.zipWith (fun a b => [a, b]) i.alpha i.beta

/-- GeometricImpactFrictionMap.cpp:222-264 `cacheImpulses` -/
def geometricCache (e : FrictionEnv Q V C K S P) (mode : ImpulsesToCache) (k : K) (contacts : List C) (i : Impulses S) : Outcome K :=
  match mode with
  | .none => .ok k
  | .normal => cacheNormal e.cache k contacts i.alpha
  | .normalAndFriction => if e.ambientDims = 2 then storeAll e.cache k contacts (pairVectors i) else .exit

/-- scisim/ConstrainedMaps/GeometricImpactFrictionMap.cpp:267-442 `GeometricImpactFrictionMap::flow` -/
def geometricFlow [Zero S] (e : FrictionEnv Q V C K S P) (mode : ImpulsesToCache) (iteration : Nat) (s : MapState Q V K P) :
    Outcome (MapState Q V K P × Option (SolveRecord Q V C S)) :=
  let f := e.fit s.v s.f
  let q1v1 := e.umap iteration s.q s.v
  (e.activeSet s.q q1v1.1 s.v).bind fun contacts =>
  if contacts = [] then .ok (⟨q1v1.1, q1v1.2, e.cache.clear, f⟩, none)
  else
    (geometricInit e mode s.cache contacts).bind fun (start, k) =>
    (e.solve iteration s.q s.v none contacts start f).bind fun (final, v2, f') =>
    (geometricCache e mode k contacts final).bind fun k' =>
    let qv := e.umap iteration s.q v2
    .ok (⟨qv.1, qv.2, k', f'⟩, some ⟨s.q, s.v, contacts, start, final⟩)

/-- scisim/ConstrainedMaps/StabilizedImpactFrictionMap.cpp:48-183 `StabilizedImpactFrictionMap::flow`. The flags `m_warm_start_alpha` and
`m_warm_start_beta` are not used. -/
def stabilizedFlow [Zero S] (e : FrictionEnv Q V C K S P) (_warmAlpha _warmBeta : Bool) (iteration : Nat) (s : MapState Q V K P) :
    Outcome (MapState Q V K P × Option (SolveRecord Q V C S)) :=
  let f := e.fit s.v s.f
  let q1v1 := e.umap iteration s.q s.v
  (e.activeSet s.q q1v1.1 q1v1.2).bind fun contacts =>
  if contacts = [] then .ok (⟨q1v1.1, q1v1.2, s.cache, f⟩, none)
  else
    let start := zeroImpulses e contacts
    (e.solve iteration s.q q1v1.2 none contacts start f).bind fun (final, v2, f') =>
    .ok (⟨e.inertial s.q v2, v2, s.cache, f'⟩, some ⟨s.q, s.v, contacts, start, final⟩)

/-- SymplecticEulerImpactFrictionMap.cpp:89-126: three impulses for each contact -/
def decacheTriples [Zero S] [DecidableEq S] (e : FrictionEnv Q V C K S P) (q : Q) (v : V) (k : K) (contacts : List C) : Outcome (Impulses S) :=
  (forEach (fun c => (e.cache.get k c 6).bind fun r =>
      if ∀ x ∈ r, x = 0 then .ok (0, 0, 0) else e.decache3 q v c r) contacts).bind fun abb =>
  if e.impulsesPerNormal = 2 then .ok ⟨abb.map (·.1), abb.flatMap fun x => [x.2.1, x.2.2]⟩ else .ub

/-- SymplecticEulerImpactFrictionMap.cpp:48-131 `initializeImpulses` -/
def symplecticInit [Zero S] [DecidableEq S] (e : FrictionEnv Q V C K S P) (mode : ImpulsesToCache) (q : Q) (v : V) (k : K) (contacts : List C) :
    Outcome (Impulses S × K) :=
  match mode with
  | .none => .ok (zeroImpulses e contacts, k)
  | .normal => (decacheNormal e.cache k contacts).bind fun alpha => .ok (⟨alpha, (zeroImpulses e contacts).beta⟩, e.cache.clear)
  | .normalAndFriction =>
    if e.ambientDims = 2 then (decachePairs e k contacts).bind fun i => .ok (i, e.cache.clear)
    else (decacheTriples e q v k contacts).bind fun i => .ok (i, e.cache.clear)

/-- The vectors stored by SymplecticEulerImpactFrictionMap.cpp:172-193, one for each contact -/
def tripleVectors (e : FrictionEnv Q V C K S P) (q : Q) (v : V) : List C → List S → List S → List (List S)
  | c :: cs, a :: as, b0 :: b1 :: bs => e.encache3 q v c (a, b0, b1) :: tripleVectors e q v cs as bs
  | _, _, _ => []

/-- SymplecticEulerImpactFrictionMap.cpp:133-198 `cacheImpulses` -/
def symplecticCache (e : FrictionEnv Q V C K S P) (mode : ImpulsesToCache) (q : Q) (v : V) (k : K) (contacts : List C) (i : Impulses S) : Outcome K :=
  match mode with
  | .none => .ok k
  | .normal => cacheNormal e.cache k contacts i.alpha
  | .normalAndFriction =>
    if e.ambientDims = 2 then storeAll e.cache k contacts (pairVectors i)
    else storeAll e.cache k contacts (tripleVectors e q v contacts i.alpha i.beta)

/-- scisim/ConstrainedMaps/SymplecticEulerImpactFrictionMap.cpp:201-407 `SymplecticEulerImpactFrictionMap::flow`; the unconstrained map is not used. -/
def symplecticFlow [Add V] [Zero S] [DecidableEq S] (e : FrictionEnv Q V C K S P) (mode : ImpulsesToCache) (iteration : Nat) (s : MapState Q V K P) :
    Outcome (MapState Q V K P × Option (SolveRecord Q V C S)) :=
  let f := e.fit s.v s.f
  (e.vdelta s.q s.v).bind fun vdelta =>
  let q1 := e.inertial s.q (s.v + vdelta)
  (e.activeSet s.q q1 s.v).bind fun contacts =>
  if contacts = [] then
    let v1 := s.v + vdelta
    .ok (⟨e.inertial s.q v1, v1, e.cache.clear, f⟩, none)
  else
    (symplecticInit e mode s.q s.v s.cache contacts).bind fun (start, k) =>
    (e.solve iteration s.q s.v (some vdelta) contacts start f).bind fun (final, v1, f') =>
    let v1 := v1 + vdelta
    (symplecticCache e mode s.q s.v k contacts final).bind fun k' =>
    .ok (⟨e.inertial s.q v1, v1, k', f'⟩, some ⟨s.q, s.v, contacts, start, final⟩)

/-- Consecutive steps with iteration numbers `start + 1`, `start + 2`, …; the records in order. -/
def runMap {σ R : Type} (flow : Nat → σ → Outcome (σ × R)) (start : Nat) : Nat → σ → Outcome (σ × List R)
  | 0, s => .ok (s, [])
  | n + 1, s =>
    (runMap flow start n s).bind fun (s', rs) => (flow (start + n + 1) s').bind fun (s'', r) => .ok (s'', rs ++ [r])

/-! ## Cached forces in three dimensions -/

/-- Eigen `Quaternion::_transformVector` (library code, Eigen/src/Geometry/Quaternion.h), which `quaternion * vector` uses -/
def Quat.rotate (q : Quat) (v : Vec3) : Vec3 :=
  let u : Vec3 := ![q.x, q.y, q.z]
  let uv := (2 : ℝ) • crossProduct u v
  v + q.w • uv + crossProduct u uv

/-- `norm()` of a 3-vector -/
noncomputable def norm3 (v : Vec3) : ℝ := Real.sqrt (v 0 * v 0 + v 1 * v 1 + v 2 * v 2)

/-- Eigen `normalized()` -/
noncomputable def normalized3 (v : Vec3) : Vec3 := if 0 < norm3 v then fun k => v k / norm3 v else v

/-- Eigen `Quaternion::FromTwoVectors` (library code, Eigen/src/Geometry/Quaternion.h). `axis` stands for the last column of `V` in the singular value
decomposition of the matrix with rows `v0`, `v1` (a unit vector orthogonal to both), used for almost opposite vectors; the threshold
`NumTraits<double>::dummy_precision()` is `1e-12`. -/
noncomputable def Quat.fromTwoVectors (axis : Vec3 → Vec3 → Vec3) (a b : Vec3) : Quat :=
  let v0 := normalized3 a
  let v1 := normalized3 b
  let c := v1 ⬝ᵥ v0
  if c < -1 + 1 / 1000000000000 then
    let c := max c (-1)
    let ax := axis v0 v1
    let w2 := (1 + c) * (1 / 2)
    let r := Real.sqrt (1 - w2)
    ⟨Real.sqrt w2, ax 0 * r, ax 1 * r, ax 2 * r⟩
  else
    let ax := crossProduct v0 v1
    let s := Real.sqrt ((1 + c) * 2)
    let invs := 1 / s
    ⟨s * (1 / 2), ax 0 * invs, ax 1 * invs, ax 2 * invs⟩

/-- SymplecticEulerImpactFrictionMap.cpp:104-122: the three impulses from a cached vector of six numbers; the columns of `basis` are the contact
normal and two tangents -/
noncomputable def decacheForce (axis : Vec3 → Vec3 → Vec3) (basis : Mat3) (r : List ℝ) : Outcome (ℝ × ℝ × ℝ) :=
  match r with
  | [n0, n1, n2, f0, f1, f2] =>
    let R := Quat.fromTwoVectors axis ![n0, n1, n2] (fun i => basis i 0)
    let f := R.rotate ![f0, f1, f2]
    .ok (f ⬝ᵥ (fun i => basis i 0), f ⬝ᵥ (fun i => basis i 1), f ⬝ᵥ (fun i => basis i 2))
  | _ => .ub

/-- SymplecticEulerImpactFrictionMap.cpp:183-189: the contact normal and the force -/
def encacheForce (basis : Mat3) (i : ℝ × ℝ × ℝ) : List ℝ :=
  let f : Vec3 := fun k => i.1 * basis k 0 + i.2.1 * basis k 1 + i.2.2 * basis k 2
  [basis 0 0, basis 1 0, basis 2 0, f 0, f 1, f 2]

/-! ## The ball simulation as a constrained system -/

/-- the contact as the impulse cache sees it: ball2d/ConstraintCache.cpp:20-57 dispatches on `name()` -/
def Contact.cacheKey : Contact → BallContact
  | .ballBall c => if c.teleported then .other else if c.kick.isSome then .other else .ballBall (UInt32.ofNat c.idx0) (UInt32.ofNat c.idx1)
  | .plane i _ k => .planeBall (UInt32.ofNat k) (UInt32.ofNat i)
  | .drum i _ k => .drumBall (UInt32.ofNat k) (UInt32.ofNat i)

/-- ball2d/Ball2DSim.cpp:203-221: the impulse cache of the ball simulation; impulses are the `double`s it holds -/
def ballCacheSys : CacheSys Contact BallCache F64 where
  clear := BallCache.clear
  store k c r := k.store c.cacheKey r
  get k c n := k.get c.cacheKey n

instance zeroF64 : Zero F64 := ⟨⟨0⟩⟩

/-- positions as the collision detection sees them -/
def ballSteps {n : Nat} (s : BallSim n) (q0 q1 : VecX n 2) : List BallStep :=
  List.ofFn fun i => ⟨⟨q0 i 0, q0 i 1⟩, ⟨q1 i 0, q1 i 1⟩, s.r i, s.fixed i⟩

/-- ball2d/Ball2DSim.cpp:151-173 `computeActiveSet` in terms of flat vectors -/
noncomputable def ballActiveSet {n : Nat} (junk : ℝ → ℤ) (s : BallSim n) (planes : List (HalfPlane ℝ)) (drums : List Drum)
    (portals : List (PlanarPortal ℝ)) (q0 q1 _v : VecX n 2) : Outcome (List Contact) :=
  computeActiveSet junk (ballSteps s q0 q1) planes drums portals

/-- SymplecticEulerImpactFrictionMap.cpp:222-227 for the ball simulation; `zeroOutForcesOnFixedBodies` (ball2d/Ball2DSim.cpp:80-90) goes by
`isKinematicallyScripted`, which is false -/
noncomputable def ballVdelta {n : Nat} (s : BallSim n) (dt : ℝ) (q _v : VecX n 2) : Outcome (VecX n 2) :=
  .ok (dt • (s.Minv * zeroForcesOnKinematicBodies s.sys (s.computeForce q)))

/-- The same for 2D rigid bodies: `zeroOutForcesOnFixedBodies` is not implemented (rigidbody2d/RigidBody2DSim.cpp:115-119) -/
def rb2dVdelta {n : Nat} (_s : RbSim n) (_dt : ℝ) (_q _v : VecX n 3) : Outcome (VecX n 3) := .exit

/-- ball2d/Ball2DSim.cpp:92-98, rigidbody2d/RigidBody2DSim.cpp:121-127 `linearInertialConfigurationUpdate` -/
noncomputable def linearUpdate {n d : Nat} (dt : ℝ) (q0 v0 : VecX n d) : VecX n d := q0 + dt • v0

/-! ## The whole step of the ball simulation -/

/-- positions and velocities of the balls, `segment<2>( 2 * i )` -/
def toBodies {n : Nat} (q v : VecX n 2) : List (Body ℝ) := List.ofFn fun i => ⟨⟨q i 0, q i 1⟩, ⟨v i 0, v i 1⟩⟩

/-- back to flat vectors -/
noncomputable def ofBodies {n : Nat} (bs : List (Body ℝ)) : VecX n 2 × VecX n 2 :=
  (fun i => ![(bs[i.val]?.map (·.q.x)).getD 0, (bs[i.val]?.map (·.q.y)).getD 0],
   fun i => ![(bs[i.val]?.map (·.v.x)).getD 0, (bs[i.val]?.map (·.v.y)).getD 0])

/-- ball2d/Ball2DSim.cpp:259-326: the three `Ball2DSim::flow` differ only in the map called between the two portal updates; script call backs are left
out. `inner` is that map, given the updated portals. -/
noncomputable def ballSimFlow {n : Nat} {K P R : Type} (junk : ℝ → ℤ) (dt : ℝ)
    (inner : List (PlanarPortal ℝ) → Nat → MapState (VecX n 2) (VecX n 2) K P → Outcome (MapState (VecX n 2) (VecX n 2) K P × R)) (iteration : Nat)
    (s : List (PlanarPortal ℝ) × MapState (VecX n 2) (VecX n 2) K P) :
    Outcome ((List (PlanarPortal ℝ) × MapState (VecX n 2) (VecX n 2) K P) × R) :=
  let portals := updatePeriodicBoundaryConditionsStartOfStep junk iteration dt s.1
  (inner portals iteration s.2).bind fun (s', r) =>
  let qv : VecX n 2 × VecX n 2 := ofBodies (enforcePeriodicBoundaryConditions junk portals (toBodies s'.q s'.v))
  .ok ((portals, ⟨qv.1, qv.2, s'.cache, s'.f⟩), r)

end Scisim
