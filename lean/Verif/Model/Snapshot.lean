import Verif.Model.ImpulseCache
/-!
# Snapshot contents: simulation states and solver configurations

Records hold what the C++ objects hold, with `double`s as bit patterns.  Serialisers that can end the process return an
`Outcome`.
-/

namespace Scisim

/-- The bytes of an ASCII string literal. -/
def ascii (s : String) : Bytes := s.toList.map fun c => UInt8.ofNat c.toNat

/-! ## 2D balls -/

namespace Ball2D

/-- ball2d/StaticGeometry/StaticDrum.h:27-28 -/
structure Drum where
  x : V2 F64
  r : F64
deriving DecidableEq

/-- ball2d/StaticGeometry/StaticDrum.cpp:35-40 -/
def serDrum (d : Drum) : Bytes := serV2 d.x ++ serPod d.r

/-- ball2d/StaticGeometry/StaticDrum.cpp:18-23 -/
def deDrum : Dec Drum := do
  let x ← deV2
  let r ← dePod F64
  pure ⟨x, r⟩

/-- ball2d/StaticGeometry/StaticPlane.h:38-41 (member order is initialisation order) -/
structure Plane where
  x : V2 F64
  v : V2 F64
  n : V2 F64
  t : V2 F64
deriving DecidableEq

/-- ball2d/StaticGeometry/StaticPlane.cpp:81-88 -/
def serPlane (p : Plane) : Bytes := serV2 p.x ++ (serV2 p.v ++ (serV2 p.n ++ serV2 p.t))

/-- ball2d/StaticGeometry/StaticPlane.cpp:22-32 -/
def dePlane : Dec Plane := do
  let x ← deV2
  let v ← deV2
  let n ← deV2
  let t ← deV2
  pure ⟨x, v, n, t⟩

/-- ball2d/Portals/PlanarPortal.h:129-136 -/
structure Portal where
  planeA : Plane
  planeB : Plane
  v : F64
  bounds : F64
  dx : F64
deriving DecidableEq

/-- ball2d/Portals/PlanarPortal.cpp:222-230 -/
def serPortal (p : Portal) : Bytes :=
  serPlane p.planeA ++ (serPlane p.planeB ++ (serPod p.v ++ (serPod p.bounds ++ serPod p.dx)))

/-- ball2d/Portals/PlanarPortal.cpp:68-76 -/
def dePortal : Dec Portal := do
  let a ← dePlane
  let b ← dePlane
  let v ← dePod F64
  let bounds ← dePod F64
  let dx ← dePod F64
  pure ⟨a, b, v, bounds, dx⟩

/-- The two force classes of ball2d/Forces. -/
inductive Force where
  | gravity (g : V2 F64)
  | penalty (k power : F64)
deriving DecidableEq

/-- ball2d/Forces/Ball2DGravityForce.cpp:54-59, ball2d/Forces/PenaltyForce.cpp:100-106 -/
def serForce : Force → Bytes
  | .gravity g => serStr (ascii "ball2d_gravity_force") ++ serV2 g
  | .penalty k p => serStr (ascii "hertzian_penalty") ++ (serPod k ++ serPod p)

/-- ball2d/Ball2DState.cpp:299-310: one force -/
def deForce : Dec Force := do
  let name ← deStr
  if name = ascii "ball2d_gravity_force" then do
    let g ← deV2
    pure (.gravity g)
  else Dec.exit

/-- ball2d/Ball2DState.h (private members) -/
structure State where
  q : List F64
  v : List F64
  r : List F64
  fixed : List Bool
  M : Sparse
  Minv : Sparse
  drums : List Drum
  planes : List Plane
  portals : List Portal
  forces : List Force
deriving DecidableEq

/-- ball2d/Ball2DState.cpp:259-272 -/
def serState (s : State) : Bytes :=
  serVecX s.q ++ (serVecX s.v ++ (serVecX s.r ++ (serVecBool s.fixed ++ (serSparse s.M ++ (serSparse s.Minv ++
    (serVec serDrum s.drums ++ (serVec serPlane s.planes ++ (serVec serPortal s.portals ++
      serVec serForce s.forces))))))))

/-- ball2d/Ball2DState.cpp:274-313; the force loop (291-312) reads the count and then each force. -/
def deState : Dec State := do
  let q ← deVecX F64
  let v ← deVecX F64
  let r ← deVecX F64
  let fixed ← deVecBool
  let M ← deSparse
  let Minv ← deSparse
  let drums ← deVec deDrum
  let planes ← deVec dePlane
  let portals ← deVec dePortal
  let forces ← deVec deForce
  pure ⟨q, v, r, fixed, M, Minv, drums, planes, portals, forces⟩

/-- ball2d/Ball2DSim.h: state and constraint cache -/
structure Sim where
  state : State
  cache : BallCache
deriving DecidableEq

/-- ball2d/Ball2DSim.cpp:810-815 -/
def serSim (s : Sim) : Bytes := serState s.state ++ serBallCache s.cache

/-- ball2d/Ball2DSim.cpp:817-822 -/
def deSim : Dec Sim := do
  let st ← deState
  let c ← deBallCache
  pure ⟨st, c⟩

end Ball2D

/-! ## 2D rigid bodies -/

namespace RB2D

/-- rigidbody2d/RigidBody2DStaticPlane.h:39-47 -/
structure Plane where
  x : V2 F64
  n : V2 F64
  t : V2 F64
  v : V2 F64
  omega : F64
deriving DecidableEq

/-- rigidbody2d/RigidBody2DStaticPlane.cpp:93-101 -/
def serPlane (p : Plane) : Bytes := serV2 p.x ++ (serV2 p.n ++ (serV2 p.t ++ (serV2 p.v ++ serPod p.omega)))

/-- rigidbody2d/RigidBody2DStaticPlane.cpp:23-34 -/
def dePlane : Dec Plane := do
  let x ← deV2
  let n ← deV2
  let t ← deV2
  let v ← deV2
  let w ← dePod F64
  pure ⟨x, n, t, v, w⟩

/-- rigidbody2d/PlanarPortal.h:116-123 -/
structure Portal where
  planeA : Plane
  planeB : Plane
  v : F64
  bounds : F64
  dx : F64
deriving DecidableEq

/-- rigidbody2d/PlanarPortal.cpp:330-338 -/
def serPortal (p : Portal) : Bytes :=
  serPlane p.planeA ++ (serPlane p.planeB ++ (serPod p.v ++ (serPod p.bounds ++ serPod p.dx)))

/-- rigidbody2d/PlanarPortal.cpp, stream constructor: members in declaration order -/
def dePortal : Dec Portal := do
  let a ← dePlane
  let b ← dePlane
  let v ← dePod F64
  let bounds ← dePod F64
  let dx ← dePod F64
  pure ⟨a, b, v, bounds, dx⟩

inductive Geo where
  | circle (r : F64)
  | box (r : V2 F64)
deriving DecidableEq

/-- rigidbody2d/CircleGeometry.cpp:52-56 (`CIRCLE` = 0), rigidbody2d/BoxGeometry.cpp:50-54 (`BOX` = 1) -/
def serGeo : Geo → Bytes
  | .circle r => serPod (0 : Int32) ++ serPod r
  | .box r => serPod (1 : Int32) ++ serV2 r

/-- rigidbody2d/RigidBody2DState.cpp:505-520: for an unknown tag no case matches and a null geometry is kept, which every
later use dereferences. -/
def deGeo : Dec Geo := do
  let tag ← dePod Int32
  if tag = 0 then do
    let r ← dePod F64
    pure (.circle r)
  else if tag = 1 then do
    let r ← deV2
    pure (.box r)
  else Dec.ub

/-- rigidbody2d/NearEarthGravityForce.h:32 -/
structure Force where
  g : V2 F64
deriving DecidableEq

/-- rigidbody2d/NearEarthGravityForce.cpp:55-59 (`NEAR_EARTH_GRAVITY` = 0) -/
def serForce (f : Force) : Bytes := serPod (0 : Int32) ++ serV2 f.g

/-- rigidbody2d/RigidBody2DState.cpp:529-539 -/
def deForce : Dec Force := do
  let tag ← dePod Int32
  if tag = 0 then do
    let g ← deV2
    pure ⟨g⟩
  else Dec.ub

/-- rigidbody2d/RigidBody2DState.h:91-102 -/
structure State where
  q : List F64
  v : List F64
  M : Sparse
  Minv : Sparse
  fixed : List Bool
  geoIdx : List UInt32
  geometry : List Geo
  forces : List Force
  planes : List Plane
  portals : List Portal
deriving DecidableEq

/-- rigidbody2d/RigidBody2DState.cpp:485-498 -/
def serState (s : State) : Bytes :=
  serVecX s.q ++ (serVecX s.v ++ (serSparse s.M ++ (serSparse s.Minv ++ (serVecBool s.fixed ++ (serVecX s.geoIdx ++
    (serVec serGeo s.geometry ++ (serVec serForce s.forces ++ (serVec serPlane s.planes ++
      serVec serPortal s.portals))))))))

/-- rigidbody2d/RigidBody2DState.cpp:542-556 -/
def deState : Dec State := do
  let q ← deVecX F64
  let v ← deVecX F64
  let M ← deSparse
  let Minv ← deSparse
  let fixed ← deVecBool
  let gi ← deVecX UInt32
  let geo ← deVec deGeo
  let forces ← deVec deForce
  let planes ← deVec dePlane
  let portals ← deVec dePortal
  pure ⟨q, v, M, Minv, fixed, gi, geo, forces, planes, portals⟩

structure Sim where
  state : State
  cache : RB2DCache
deriving DecidableEq

/-- rigidbody2d/RigidBody2DSim.cpp:1140-1145 -/
def serSim (s : Sim) : Bytes := serState s.state ++ serRB2DCache s.cache

/-- rigidbody2d/RigidBody2DSim.cpp:1147-1152 -/
def deSim : Dec Sim := do
  let st ← deState
  let c ← deRB2DCache
  pure ⟨st, c⟩

end RB2D

/-! ## Solver configurations -/

/-- Optional solver libraries the program was compiled with (`QL_FOUND`, `IPOPT_FOUND`). -/
structure Build where
  ql : Bool
  ipopt : Bool

/-- The impact operator classes of scisim/ConstrainedMaps/ImpactMaps; `null` is the null pointer. -/
inductive ImpactOp where
  | null
  | gr (vTol : F64) (inner : ImpactOp)
  | grr (elastic inelastic : ImpactOp)
  | gaussSeidel (vTol : F64)
  | jacobi (vTol : F64)
  | lcpQL (tol : F64)
  | lcpQLVP (tol : F64)
  | lcpIpopt (solvers : List Bytes) (tol : F64)
  | lcpAPGD (tol : F64) (maxIters : UInt32)
deriving DecidableEq

/-- Append to an output that may already have ended the process. -/
def andThen (a b : Outcome Bytes) : Outcome Bytes := a.bind fun x => b.bind fun y => .ok (x ++ y)

/-- scisim/ConstrainedMaps/ConstrainedMapUtilities.cpp:36-50 with the `name()`/`serialize()` pairs of the classes:
GROperator.cpp:133-148, GRROperator.cpp:71-86, GaussSeidelOperator.cpp:59-72, JacobiOperator.cpp:54-68 (exits),
LCPOperatorQL.cpp:127-140, LCPOperatorQLVP.cpp:173-187 (exits), LCPOperatorIpopt.cpp:197-211, LCPOperatorAPGD.cpp:46-60. -/
def serImpactOp : ImpactOp → Outcome Bytes
  | .null => .ok (serStr (ascii "NULL"))
  | .gr tol inner => andThen (.ok (serStr (ascii "gr") ++ serPod tol)) (serImpactOp inner)
  | .grr e i => andThen (.ok (serStr (ascii "grr"))) (andThen (serImpactOp e) (serImpactOp i))
  | .gaussSeidel tol => .ok (serStr (ascii "gauss_seidel") ++ serPod tol)
  | .jacobi _ => .exit
  | .lcpQL tol => .ok (serStr (ascii "lcp_ql") ++ serPod tol)
  | .lcpQLVP _ => .exit
  | .lcpIpopt ss tol => .ok (serStr (ascii "lcp_ipopt") ++ (serStrs ss ++ serPod tol))
  | .lcpAPGD tol n => .ok (serStr (ascii "lcp_apgd") ++ (serPod tol ++ serPod n))

/-- scisim/ConstrainedMaps/ConstrainedMapUtilities.cpp:118-166 and the stream constructors of the operators. The first argument
bounds the nesting; every level consumes at least the eight bytes of its name's length, so the length of the stream is
enough (`deImpactOp`). -/
def deImpactOpAux (b : Build) : Nat → Dec ImpactOp
  | 0 => Dec.ub
  | depth + 1 => do
    let name ← deStr
    if name = ascii "gr" then do
      let tol ← dePod F64
      let inner ← deImpactOpAux b depth
      pure (.gr tol inner)
    else if name = ascii "grr" then do
      let e ← deImpactOpAux b depth
      let i ← deImpactOpAux b depth
      pure (.grr e i)
    else if name = ascii "gauss_seidel" then do
      let tol ← dePod F64
      pure (.gaussSeidel tol)
    else if b.ql = true ∧ name = ascii "lcp_ql" then do
      let tol ← dePod F64
      pure (.lcpQL tol)
    else if b.ipopt = true ∧ name = ascii "lcp_ipopt" then do
      let ss ← deStrs
      let tol ← dePod F64
      pure (.lcpIpopt ss tol)
    else if name = ascii "lcp_apgd" then do
      let tol ← dePod F64
      let n ← dePod UInt32
      pure (.lcpAPGD tol n)
    else if name = ascii "NULL" then pure .null
    else Dec.exit

def deImpactOp (b : Build) : Dec ImpactOp := fun bs => deImpactOpAux b (bs.length + 1) bs

/-- The friction operator classes of scisim/ConstrainedMaps/FrictionMaps. -/
inductive FrictionOp where
  | null
  | linearMDPQL (samples : Int32) (tol : F64)
  | boundConstrainedMDPQL (tol : F64)
  | smoothMDPIpopt (solvers : List Bytes) (tol : F64)
deriving DecidableEq

/-- ConstrainedMapUtilities.cpp:52-66; LinearMDPOperatorQL.cpp:192-207, BoundConstrainedMDPOperatorQL.cpp:140-153,
SmoothMDPOperatorIpopt.cpp:64-78 -/
def serFrictionOp : FrictionOp → Bytes
  | .null => serStr (ascii "NULL")
  | .linearMDPQL n tol => serStr (ascii "linear_mdp_ql") ++ (serPod n ++ serPod tol)
  | .boundConstrainedMDPQL tol => serStr (ascii "bound_constrained_mdp_ql") ++ serPod tol
  | .smoothMDPIpopt ss tol => serStr (ascii "smooth_mdp_ipopt") ++ (serStrs ss ++ serPod tol)

/-- ConstrainedMapUtilities.cpp:168-204 -/
def deFrictionOp (b : Build) : Dec FrictionOp := do
  let name ← deStr
  if b.ql = true ∧ name = ascii "linear_mdp_ql" then do
    let n ← dePod Int32
    let tol ← dePod F64
    pure (.linearMDPQL n tol)
  else if b.ql = true ∧ name = ascii "bound_constrained_mdp_ql" then do
    let tol ← dePod F64
    pure (.boundConstrainedMDPQL tol)
  else if b.ipopt = true ∧ name = ascii "smooth_mdp_ipopt" then do
    let ss ← deStrs
    let tol ← dePod F64
    pure (.smoothMDPIpopt ss tol)
  else if name = ascii "NULL" then pure .null
  else Dec.exit

/-- The friction solver classes: StaggeredProjections, Sobogus, GRRFriction. The so-bogus solver type is an `enum class`
(any `int` value is a value of the type). -/
inductive FrictionSolver where
  | null
  | staggered (warmAlpha warmBeta : Bool) (impact : ImpactOp) (friction : FrictionOp)
  | sobogus (solverType : Int32) (evalEvery : UInt32)
  | grrFriction (impact : ImpactOp) (friction : FrictionOp)
deriving DecidableEq

/-- ConstrainedMapUtilities.cpp:68-82; StaggeredProjections.cpp:325-336, Sobogus.cpp:1095-1104, GRRFriction.cpp:98-107 -/
def serFrictionSolver : FrictionSolver → Outcome Bytes
  | .null => .ok (serStr (ascii "NULL"))
  | .staggered wa wb i f =>
    andThen (.ok (serStr (ascii "staggered_projections") ++ (serPod wa ++ serPod wb)))
      (andThen (serImpactOp i) (.ok (serFrictionOp f)))
  | .sobogus ty e => .ok (serStr (ascii "sobogus") ++ (serPod ty ++ serPod e))
  | .grrFriction i f =>
    andThen (.ok (serStr (ascii "grr_friction"))) (andThen (serImpactOp i) (.ok (serFrictionOp f)))

/-- ConstrainedMapUtilities.cpp:206-232 (`grr_friction` is not among the accepted names) -/
def deFrictionSolver (b : Build) : Dec FrictionSolver := do
  let name ← deStr
  if name = ascii "staggered_projections" then do
    let wa ← dePod Bool
    let wb ← dePod Bool
    let i ← deImpactOp b
    let f ← deFrictionOp b
    pure (.staggered wa wb i f)
  else if name = ascii "sobogus" then do
    let ty ← dePod Int32
    let e ← dePod UInt32
    pure (.sobogus ty e)
  else if name = ascii "NULL" then pure .null
  else Dec.exit

/-- scisim/ConstrainedMaps/ImpactMaps/ImpactMap.h: the persistent part is `m_warm_start`. -/
inductive ImpactMapCfg where
  | null
  | impactMap (warmStart : Bool)
deriving DecidableEq

/-- ConstrainedMapUtilities.cpp:84-99; ImpactMap.cpp:190-198 -/
def serImpactMap : ImpactMapCfg → Bytes
  | .null => serStr (ascii "NULL")
  | .impactMap w => serStr (ascii "impact_map") ++ serPod w

/-- ConstrainedMapUtilities.cpp:234-256 -/
def deImpactMap : Dec ImpactMapCfg := do
  let name ← deStr
  if name = ascii "impact_map" then do
    let w ← dePod Bool
    pure (.impactMap w)
  else if name = ascii "NULL" then pure .null
  else Dec.exit

/-- The impact-friction map classes (persistent members); `cache` is `enum class ImpulsesToCache`. -/
inductive ImpactFrictionMapCfg where
  | null
  | geometric (f : List F64) (absTol : F64) (maxIters : UInt32) (cache : Int32)
  | stabilized (f : List F64) (absTol : F64) (maxIters : UInt32) (warmAlpha warmBeta : Bool)
  | symplecticEuler (f : List F64) (absTol : F64) (maxIters : UInt32) (stabilize : Bool) (penetration : F64) (cache : Int32)
deriving DecidableEq

/-- ConstrainedMapUtilities.cpp:101-115; GeometricImpactFrictionMap.cpp:458-474, StabilizedImpactFrictionMap.cpp:199-216,
SymplecticEulerImpactFrictionMap.cpp:423-441 -/
def serImpactFrictionMap : ImpactFrictionMapCfg → Bytes
  | .null => serStr (ascii "NULL")
  | .geometric f tol n c =>
    serStr (ascii "geometric_impact_friction_map") ++ (serVecX f ++ (serPod tol ++ (serPod n ++ serPod c)))
  | .stabilized f tol n wa wb =>
    serStr (ascii "stabilized_impact_friction_map") ++
      (serVecX f ++ (serPod tol ++ (serPod n ++ (serPod wa ++ serPod wb))))
  | .symplecticEuler f tol n st pen c =>
    serStr (ascii "symplectic_euler_impact_friction_map") ++
      (serVecX f ++ (serPod tol ++ (serPod n ++ (serPod st ++ (serPod pen ++ serPod c)))))

/-- ConstrainedMapUtilities.cpp:258-288; GeometricImpactFrictionMap.cpp:33-44, StabilizedImpactFrictionMap.cpp:34-46,
SymplecticEulerImpactFrictionMap.cpp:32-45 -/
def deImpactFrictionMap : Dec ImpactFrictionMapCfg := do
  let name ← deStr
  if name = ascii "geometric_impact_friction_map" then do
    let f ← deVecX F64
    let tol ← dePod F64
    let n ← dePod UInt32
    let c ← dePod Int32
    pure (.geometric f tol n c)
  else if name = ascii "stabilized_impact_friction_map" then do
    let f ← deVecX F64
    let tol ← dePod F64
    let n ← dePod UInt32
    let wa ← dePod Bool
    let wb ← dePod Bool
    pure (.stabilized f tol n wa wb)
  else if name = ascii "symplectic_euler_impact_friction_map" then do
    let f ← deVecX F64
    let tol ← dePod F64
    let n ← dePod UInt32
    let st ← dePod Bool
    let pen ← dePod F64
    let c ← dePod Int32
    pure (.symplecticEuler f tol n st pen c)
  else if name = ascii "NULL" then pure .null
  else Dec.exit

/-- The unconstrained maps of the programs: the first three of the 2D programs, the last three of the 3D program. -/
inductive Integrator where
  | null
  | verlet
  | symplecticEuler
  | dmv
  | splitHam
  | exponentialEuler
deriving DecidableEq

/-- ball2d/Ball2DUtilities.cpp:15-28 with ball2d/VerletMap.cpp:43-51, ball2d/SymplecticEulerMap.cpp:34-42; the same code
in rigidbody2d/RigidBody2DUtilities.cpp:17-30 and rigidbody3d/RigidBody3DUtilities.cpp:17-31 with the `name` and `serialize` of
rigidbody3d/UnconstrainedMaps/DMVMap.cpp:209-217, SplitHamMap.cpp:184-192, ExponentialEulerMap.cpp:96-104. -/
def serIntegrator : Integrator → Bytes
  | .null => serStr (ascii "NULL")
  | .verlet => serStr (ascii "verlet")
  | .symplecticEuler => serStr (ascii "symplectic_euler")
  | .dmv => serStr (ascii "dmv")
  | .splitHam => serStr (ascii "split_ham")
  | .exponentialEuler => serStr (ascii "exponential_euler")

/-- ball2d/Ball2DUtilities.cpp:30-48: only `verlet` is accepted. -/
def deIntegratorBall2D : Dec Integrator := do
  let name ← deStr
  if name = ascii "verlet" then pure .verlet else Dec.exit

/-- rigidbody2d/RigidBody2DUtilities.cpp:32-54 -/
def deIntegratorRB2D : Dec Integrator := do
  let name ← deStr
  if name = ascii "symplectic_euler" then pure .symplecticEuler
  else if name = ascii "verlet" then pure .verlet
  else Dec.exit

/-- rigidbody3d/RigidBody3DUtilities.cpp:33-60 -/
def deIntegratorRB3D : Dec Integrator := do
  let name ← deStr
  if name = ascii "dmv" then pure .dmv
  else if name = ascii "split_ham" then pure .splitHam
  else if name = ascii "NULL" then pure .null
  else Dec.exit

/-! ## The complete snapshot file of the command line programs -/

/-- Everything `serializeSystem` writes after the magic number and git revision. `sim` is the simulation state; with
`USE_HDF5` the output directory and force flag are written, without it they are not (`none`). The time step is the pair
numerator, denominator of `Rational<std::intmax_t>`. The 3D program has no `impactMap`; there it is `null`. -/
structure Snapshot (Sim : Type) where
  sim : Sim
  iteration : UInt32
  integrator : Integrator
  dtNum : Int64
  dtDen : Int64
  endTime : F64
  impactOp : ImpactOp
  cor : F64
  frictionSolver : FrictionSolver
  mu : F64
  impactMap : ImpactMapCfg
  impactFrictionMap : ImpactFrictionMapCfg
  scriptPath : Bytes
  scriptModule : Bytes
  hdf5 : Option (Bytes × Bool)
  stepsPerSave : UInt32
  outputFrame : UInt32
  dtStringPrecision : UInt32
  saveNumberWidth : UInt32
  serializeSnapshots : Bool
  overwriteSnapshots : Bool
deriving DecidableEq

/-- the `#ifdef USE_HDF5` part, ball2dcli/ball2d_cli.cpp:239-242 -/
def serHdf5 : Option (Bytes × Bool) → Bytes
  | none => []
  | some (dir, forces) => serStr dir ++ serPod forces

/-- ball2dcli/ball2d_cli.cpp:301-304 -/
def deHdf5 (useHdf5 : Bool) : Dec (Option (Bytes × Bool)) :=
  if useHdf5 then do
    let dir ← deStr
    let forces ← dePod Bool
    pure (some (dir, forces))
  else pure none

/-- What differs between the files of the three programs: the magic number, the simulation state, which integrators can be loaded, and whether there is an
impact map. -/
structure Format (Sim : Type) where
  magic : UInt32
  serSim : Sim → Outcome Bytes
  deSim : Dec Sim
  deIntegrator : Dec Integrator
  hasImpactMap : Bool

/-- the impact map of the 2D programs, ball2dcli/ball2d_cli.cpp:232 -/
def serImpactMapIf (hasImpactMap : Bool) (m : ImpactMapCfg) : Bytes := if hasImpactMap then serImpactMap m else []

/-- ball2dcli/ball2d_cli.cpp:298 -/
def deImpactMapIf (hasImpactMap : Bool) : Dec ImpactMapCfg := if hasImpactMap then deImpactMap else pure .null

/-- ball2dcli/ball2d_cli.cpp:217-249 `serializeSystem` (rigidbody2dcli/rigidbody2d_cli.cpp:208-240 and
rigidbody3dcli/rigidbody3d_cli.cpp:222-254 are the same but for what `Format` says): the bytes written, or the process ends while
writing. -/
def serSnapshot {Sim : Type} (fmt : Format Sim) (git : Bytes) (s : Snapshot Sim) : Outcome Bytes :=
  (fmt.serSim s.sim).bind fun sim =>
  (serImpactOp s.impactOp).bind fun op =>
  (serFrictionSolver s.frictionSolver).bind fun fs =>
  .ok (serPod fmt.magic ++ (serStr git ++ (sim ++ (serPod s.iteration ++ (serIntegrator s.integrator ++
    (serPod s.dtNum ++ (serPod s.dtDen ++ (serPod s.endTime ++ (op ++ (serPod s.cor ++ (fs ++ (serPod s.mu ++
    (serImpactMapIf fmt.hasImpactMap s.impactMap ++ (serImpactFrictionMap s.impactFrictionMap ++ (serStr s.scriptPath ++
    (serStr s.scriptModule ++ (serHdf5 s.hdf5 ++ (serPod s.stepsPerSave ++ (serPod s.outputFrame ++
    (serPod s.dtStringPrecision ++ (serPod s.saveNumberWidth ++ (serPod s.serializeSnapshots ++
    serPod s.overwriteSnapshots))))))))))))))))))))))

/-- ball2dcli/ball2d_cli.cpp:266-313 `deserializeSystem` (rigidbody2dcli/rigidbody2d_cli.cpp:257-304,
rigidbody3dcli/rigidbody3d_cli.cpp:272-321): a wrong magic number is reported as failure; a different git revision only prints a warning. -/
def deSnapshot {Sim : Type} (fmt : Format Sim) (b : Build) (useHdf5 : Bool) : Dec (Snapshot Sim) := do
  let m ← dePod UInt32
  if m ≠ fmt.magic then Dec.fail
  else do
    let _git ← deStr
    let sim ← fmt.deSim
    let iteration ← dePod UInt32
    let integrator ← fmt.deIntegrator
    let dtNum ← dePod Int64
    let dtDen ← dePod Int64
    let endTime ← dePod F64
    let impactOp ← deImpactOp b
    let cor ← dePod F64
    let frictionSolver ← deFrictionSolver b
    let mu ← dePod F64
    let impactMap ← deImpactMapIf fmt.hasImpactMap
    let impactFrictionMap ← deImpactFrictionMap
    let scriptPath ← deStr
    let scriptModule ← deStr
    let hdf5 ← deHdf5 useHdf5
    let stepsPerSave ← dePod UInt32
    let outputFrame ← dePod UInt32
    let dtStringPrecision ← dePod UInt32
    let saveNumberWidth ← dePod UInt32
    let serializeSnapshots ← dePod Bool
    let overwriteSnapshots ← dePod Bool
    pure ⟨sim, iteration, integrator, dtNum, dtDen, endTime, impactOp, cor, frictionSolver, mu, impactMap,
      impactFrictionMap, scriptPath, scriptModule, hdf5, stepsPerSave, outputFrame, dtStringPrecision,
      saveNumberWidth, serializeSnapshots, overwriteSnapshots⟩

/-- The 2D ball program: `MAGIC_BINARY_NUMBER`, ball2dcli/ball2d_cli.cpp:71 -/
def ball2dFormat : Format Ball2D.Sim := ⟨8675309, fun s => .ok (Ball2D.serSim s), Ball2D.deSim, deIntegratorBall2D, true⟩

/-- The 2D rigid body program: `MAGIC_BINARY_NUMBER`, rigidbody2dcli/rigidbody2d_cli.cpp:65 -/
def rb2dFormat : Format RB2D.Sim := ⟨1337, fun s => .ok (RB2D.serSim s), RB2D.deSim, deIntegratorRB2D, true⟩

end Scisim
