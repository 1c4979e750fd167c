import Verif.Model.SceneText
import Verif.Model.Snapshot
/-!
# The elements of scene files that choose the solvers

These functions are written out in each of ball2dutils/Ball2DSceneParser.cpp, rigidbody2dutils/RigidBody2DSceneParser.cpp and rigidbody3dutils/RigidBody3DSceneParser.cpp; where
the three differ, `SceneProgram` says which one is meant. Comments cite the first file unless another is named.
-/

namespace Scisim

/-- The three programs -/
inductive SceneProgram where
  | balls2D | rigidBody2D | rigidBody3D
deriving DecidableEq

/-- The LCP solvers, as `loadLCPSolver` constructs them -/
inductive LcpChoice where
  | apgd (tol : ℚ) (maxIters : ℕ)
  | qlVp (tol : ℚ)
  | ql (tol : ℚ)
  | ipopt (linearSolvers : List (List Char)) (tol : ℚ)
deriving DecidableEq

/-- The impact operators, as `loadImpactOperatorNoCoR` constructs them -/
inductive ImpactChoice where
  | gaussSeidel (vTol : ℚ)
  | jacobi (vTol : ℚ)
  | lcp (solver : LcpChoice)
  | gr (vTol : ℚ) (solver : LcpChoice)
  | grr (elastic inelastic : ImpactChoice)
deriving DecidableEq

/-- The friction operators -/
inductive FrictionOpChoice where
  /-- `BoundConstrainedMDPOperatorQL` -/
  | ql (tol : ℚ)
  /-- `SmoothMDPOperatorIpopt` -/
  | smoothIpopt (linearSolvers : List (List Char)) (tol : ℚ)
deriving DecidableEq

/-- The friction solvers -/
inductive FrictionChoice where
  | staggered (warmAlpha warmBeta : Bool) (impact : LcpChoice) (friction : FrictionOpChoice)
  | sobogus (evalEvery : ℕ)
  | grr (impact : ImpactChoice) (friction : FrictionOpChoice)
deriving DecidableEq

/-- `ImpulsesToCache` -/
inductive CacheChoice where
  | none | normal | normalAndFriction
deriving DecidableEq

/-- The impact-friction maps -/
inductive IfMapChoice where
  | geometric (tol : ℚ) (maxIters : ℕ) (cache : CacheChoice)
  | symplecticEuler (tol : ℚ) (maxIters : ℕ) (cache : CacheChoice) (stabilize : Bool) (penetrationThreshold : ℚ)
  | stabilized (tol : ℚ) (maxIters : ℕ)
deriving DecidableEq

/-- Friction solver, friction coefficient, coefficient of restitution and map, as they are loaded together -/
structure FrictionSetup where
  mu : ℚ
  CoR : ℚ
  solver : FrictionChoice
  map : IfMapChoice
deriving DecidableEq

/-- The list of linear solvers of `ipopt`, lines 727-745 -/
def loadLinearSolvers (nd : XmlNode) : Outcome (List (List Char)) := do
  let t ← nd.require "linear_solvers"
  let ws := streamWords (t.toList.length) t.toList
  failIf ws.isEmpty
  .ok ws

/-- `loadLCPSolver`, lines 642-779; rigidbody2dutils/RigidBody2DSceneParser.cpp:562-674 and rigidbody3dutils/RigidBody3DSceneParser.cpp:1211-1323 have no `apgd` -/
def loadLcpSolver (b : Build) (p : SceneProgram) (nd : XmlNode) : Outcome LcpChoice := do
  let name ← nd.require "name"
  if name = "apgd" ∧ p = .balls2D then do
    let tol ← nd.scalar "tol"
    failIf (tol ≤ 0)
    let iters ← nd.unsigned "max_iters"
    .ok (.apgd tol iters)
  else if name = "ql_vp" ∧ b.ql then do
    let tol ← nd.scalar "tol"
    .ok (.qlVp tol)
  else if name = "ql" ∧ b.ql then do
    let tol ← nd.scalar "tol"
    .ok (.ql tol)
  else if name = "ipopt" ∧ b.ipopt then do
    let solvers ← loadLinearSolvers nd
    let tol ← nd.scalar "tol"
    failIf (tol ≤ 0)
    .ok (.ipopt solvers tol)
  else .fail

/-- The tolerance of an impact operator, lines 799-810 -/
def loadVTol (nd : XmlNode) : Outcome ℚ := do
  let tol ← nd.scalar "v_tol"
  failIf (tol < 0)
  .ok tol

/-- `loadImpactOperatorNoCoR`, lines 782-893; rigidbody2dutils/RigidBody2DSceneParser.cpp:677-788 and rigidbody3dutils/RigidBody3DSceneParser.cpp:1326-1437 are the same up to `loadLCPSolver`.
`fuel` bounds the depth of the recursion; `nd.depth` is enough. -/
def loadImpactAux (b : Build) (p : SceneProgram) : ℕ → XmlNode → Outcome ImpactChoice
  | 0, _ => .ub
  | fuel + 1, nd => do
    let type ← nd.require "type"
    if type = "gauss_seidel" then do
      let tol ← loadVTol nd
      .ok (.gaussSeidel tol)
    else if type = "jacobi" then do
      let tol ← loadVTol nd
      .ok (.jacobi tol)
    else if type = "lcp" then do
      let c ← nd.requireChild "solver"
      let s ← loadLcpSolver b p c
      .ok (.lcp s)
    else if type = "gr" then do
      let tol ← loadVTol nd
      let c ← nd.requireChild "solver"
      let s ← loadLcpSolver b p c
      .ok (.gr tol s)
    else if type = "grr" then do
      let e ← nd.requireChild "elastic_operator"
      let elastic ← loadImpactAux b p fuel e
      let i ← nd.requireChild "inelastic_operator"
      let inelastic ← loadImpactAux b p fuel i
      .ok (.grr elastic inelastic)
    else .fail

mutual
/-- The depth of an element -/
def XmlNode.depth : XmlNode → ℕ
  | .mk _ _ cs => XmlNode.depthList cs + 1
/-- The largest depth in a list of elements -/
def XmlNode.depthList : List XmlNode → ℕ
  | [] => 0
  | c :: cs => max c.depth (XmlNode.depthList cs)
end

/-- `loadImpactOperatorNoCoR`, lines 782-893 -/
def loadImpactOperator (b : Build) (p : SceneProgram) (nd : XmlNode) : Outcome ImpactChoice := loadImpactAux b p nd.depth nd

/-- `loadQLMDPOperator` and `loadMDPOperator`, lines 932-985. rigidbody2dutils/RigidBody2DSceneParser.cpp:848-869 exits. The third program calls `loadSmoothFrictionOperatorNoMu`
instead, rigidbody3dutils/RigidBody3DSceneParser.cpp:1459-1536. -/
def loadFrictionOperator (b : Build) (p : SceneProgram) (nd : XmlNode) : Outcome FrictionOpChoice :=
  match p with
  | .balls2D => do
    let name ← nd.require "name"
    if name = "ql" ∧ b.ql then do
      let tol ← nd.scalar "tol"
      failIf (tol < 0)
      .ok (.ql tol)
    else .fail
  | .rigidBody2D => .exit
  | .rigidBody3D => do
    let name ← nd.require "name"
    if name = "ipopt" ∧ b.ipopt then do
      let solvers ← loadLinearSolvers nd
      let tol ← nd.scalar "tol"
      failIf (tol < 0)
      .ok (.smoothIpopt solvers tol)
    else .fail

/-- The friction coefficient, lines 997-1017 -/
def loadMu (nd : XmlNode) : Outcome ℚ := do
  let mu ← nd.scalar "mu"
  failIf (mu < 0)
  .ok mu

/-- The coefficient of restitution, lines 1020-1040 -/
def loadCoR (nd : XmlNode) : Outcome ℚ := do
  let cor ← nd.scalar "CoR"
  failIf (cor < 0 || cor > 1)
  .ok cor

/-- The tolerance of an impact-friction map, lines 1126-1145 -/
def loadMapTol (nd : XmlNode) : Outcome ℚ := do
  let tol ← nd.scalar "tol"
  failIf (tol < 0)
  .ok tol

/-- The number of iterations, lines 1149-1168; `static_cast<unsigned>` of a positive number -/
def loadMaxIters (nd : XmlNode) : Outcome ℕ := do
  let n ← nd.int "max_iters"
  failIf (n ≤ 0)
  .ok n.toNat

/-- `loadStaggeredProjectionsFrictionSolver`, lines 992-1191; rigidbody2dutils/RigidBody2DSceneParser.cpp:876-1071; rigidbody3dutils/RigidBody3DSceneParser.cpp:1543-1740 -/
def loadStaggered (b : Build) (p : SceneProgram) (nd : XmlNode) : Outcome FrictionSetup := do
  let mu ← loadMu nd
  let cor ← loadCoR nd
  let wa ← nd.flag "internal_warm_start_alpha"
  let wb ← nd.flag "internal_warm_start_beta"
  let ic ← nd.requireChild "lcp_impact_solver"
  let impact ← loadLcpSolver b p ic
  let fc ← nd.requireChild "mdp_friction_solver"
  let friction ← loadFrictionOperator b p fc
  let staggering ← nd.require "staggering"
  let tol ← loadMapTol nd
  let iters ← loadMaxIters nd
  if staggering = "geometric" then .ok ⟨mu, cor, .staggered wa wb impact friction, .geometric tol iters .none⟩
  else if staggering = "stabilized" then .ok ⟨mu, cor, .staggered wa wb impact friction, .stabilized tol iters⟩
  else .fail

/-- The cache option, lines 1317-1343: an unknown one ends the program -/
def loadCache (nd : XmlNode) : Outcome CacheChoice := do
  let t ← nd.require "cache_impulses"
  if t = "none" then .ok .none
  else if t = "normal" then .ok .normal
  else if t = "normal_and_friction" then .ok .normalAndFriction
  else .exit

/-- The spacing of error evaluations, lines 1265-1291 -/
def loadEvalEvery (nd : XmlNode) (iters : ℕ) : Outcome ℕ := do
  let n ← nd.int "eval_every"
  failIf (n ≤ 0)
  failIf (n > iters)
  .ok n.toNat

/-- The threshold of the stabilization, lines 1384-1402 -/
def loadThreshold (nd : XmlNode) : Outcome ℚ := do
  let t ← nd.scalar "penetration_threshold"
  failIf (t < 0)
  .ok t

/-- The map of the So-bogus solver. The programs differ:
* lines 1316-1419 read the cache option first, and exit if it is given with `stabilized`;
* rigidbody2dutils/RigidBody2DSceneParser.cpp:1196-1249 read it first, have no `symplectic_euler`, and ignore it with `stabilized`;
* rigidbody3dutils/RigidBody3DSceneParser.cpp:1865-1962 read it only with `symplectic_euler`. -/
def loadSobogusMap (p : SceneProgram) (nd : XmlNode) (cor tol : ℚ) (iters : ℕ) : Outcome IfMapChoice :=
  match p with
  | .balls2D => do
    let cache ← loadCache nd
    let staggering ← nd.require "staggering"
    if staggering = "geometric" then .ok (.geometric tol iters cache)
    else if staggering = "symplectic_euler" then do
      failIf (cor ≠ 0)
      let stab ← nd.flag "stabilization"
      let thr ← loadThreshold nd
      .ok (.symplecticEuler tol iters cache stab thr)
    else if staggering = "stabilized" then if cache = .none then .ok (.stabilized tol iters) else .exit
    else .fail
  | .rigidBody2D => do
    let cache ← loadCache nd
    let staggering ← nd.require "staggering"
    if staggering = "geometric" then .ok (.geometric tol iters cache)
    else if staggering = "stabilized" then .ok (.stabilized tol iters)
    else .fail
  | .rigidBody3D => do
    let staggering ← nd.require "staggering"
    if staggering = "geometric" then .ok (.geometric tol iters .none)
    else if staggering = "symplectic_euler" then do
      failIf (cor ≠ 0)
      let stab ← nd.flag "stabilization"
      let thr ← loadThreshold nd
      let cache ← loadCache nd
      .ok (.symplecticEuler tol iters cache stab thr)
    else if staggering = "stabilized" then .ok (.stabilized tol iters)
    else .fail

/-- `loadSobogusFrictionSolver`, lines 1193-1424; rigidbody2dutils/RigidBody2DSceneParser.cpp:1073-1254; rigidbody3dutils/RigidBody3DSceneParser.cpp:1742-1968 -/
def loadSobogus (p : SceneProgram) (nd : XmlNode) : Outcome FrictionSetup := do
  let mu ← loadMu nd
  let cor ← loadCoR nd
  let iters ← loadMaxIters nd
  let every ← loadEvalEvery nd iters
  let tol ← loadMapTol nd
  let map ← loadSobogusMap p nd cor tol iters
  .ok ⟨mu, cor, .sobogus every, map⟩

/-- `loadGRRFrictionSolver`, rigidbody3dutils/RigidBody3DSceneParser.cpp:1984-2100 -/
def loadGrrFriction (b : Build) (nd : XmlNode) : Outcome FrictionSetup := do
  let mu ← loadMu nd
  let cor ← loadCoR nd
  let ic ← nd.requireChild "impact_operator"
  let impact ← loadImpactOperator b .rigidBody3D ic
  let fc ← nd.requireChild "friction_operator"
  let friction ← loadFrictionOperator b .rigidBody3D fc
  let staggering ← nd.require "staggering"
  if staggering = "geometric" then .ok ⟨mu, cor, .grr impact friction, .geometric 0 0 .none⟩
  else if staggering = "stabilized" then .ok ⟨mu, cor, .grr impact friction, .stabilized 0 0⟩
  else .fail

/-- What the parsers leave in `impact_operator`, `impact_map`, `CoR`, `friction_solver`, `mu`, `if_map`. `none` is a null pointer or NaN. -/
structure SolverSetup where
  impactOperator : Option ImpactChoice
  /-- `impact_map`, with its option to cache impulses -/
  impactMap : Option Bool
  CoR : Option ℚ
  frictionSolver : Option FrictionChoice
  mu : Option ℚ
  ifMap : Option IfMapChoice
deriving DecidableEq

/-- The impact operator, ball2dutils/Ball2DSceneParser.cpp:1533-1549, and `loadImpactOperator`, 895-930; the same in
rigidbody2dutils/RigidBody2DSceneParser.cpp:1551-1567. In rigidbody3dutils/RigidBody3DSceneParser.cpp:2272-2285, 1439-1457 there is no cache option and no map. -/
def loadImpactSetup (b : Build) (p : SceneProgram) (root : XmlNode) : Outcome SolverSetup :=
  match root.first "impact_operator" with
  | none => .ok ⟨none, none, none, none, none, none⟩
  | some nd => do
    let cor ← nd.scalar "CoR"
    let cache ← if p = .rigidBody3D then .ok none else nd.flag "cache_impulses" >>= fun c => .ok (some c)
    let op ← loadImpactOperator b p nd
    .ok ⟨some op, cache, some cor, none, none, none⟩

/-- One of the elements with a friction solver, ball2dutils/Ball2DSceneParser.cpp:1555-1574 and 1576-1593: it is an error if there is an impact operator or another friction solver already -/
def loadFrictionSetup (root : XmlNode) (name : String) (load : XmlNode → Outcome FrictionSetup) (s : SolverSetup) : Outcome SolverSetup :=
  match root.first name with
  | none => .ok s
  | some nd => do
    failIf (s.impactOperator.isSome || s.impactMap.isSome)
    failIf s.frictionSolver.isSome
    let f ← load nd
    .ok ⟨s.impactOperator, s.impactMap, some f.CoR, some f.solver, some f.mu, some f.map⟩

/-- All solvers, ball2dutils/Ball2DSceneParser.cpp:1533-1593; rigidbody2dutils/RigidBody2DSceneParser.cpp:1551-1610; rigidbody3dutils/RigidBody3DSceneParser.cpp:2272-2349 with
one element more -/
def loadSolvers (b : Build) (p : SceneProgram) (root : XmlNode) : Outcome SolverSetup := do
  let s ← loadImpactSetup b p root
  let s ← loadFrictionSetup root "staggered_projections_friction_solver" (loadStaggered b p) s
  let s ← loadFrictionSetup root "sobogus_friction_solver" (loadSobogus p) s
  if p = .rigidBody3D then loadFrictionSetup root "grr_friction_solver" (loadGrrFriction b) s else .ok s

end Scisim
