import Mathlib.Data.Real.Basic
import Mathlib.LinearAlgebra.Matrix.Notation
import Mathlib.Data.Matrix.Mul
import Mathlib.Data.Matrix.Diagonal
import Verif.Model.Outcome
/-!
# Impacts: contacts, the pairwise response, and the impact operators

Velocities are functions of a degree of freedom. For balls and spheres a degree of freedom is a pair (body, coordinate); of the six degrees of
freedom of a sphere only the three of its centre appear, the impact response of spheres does not touch the others. The general operators (linear
complementarity, generalized reflections, generalized restitution) are over any finite type `ι` of degrees of freedom, with any matrices `Minv`, `N`.
-/

namespace Scisim

open Matrix

variable {n d : Nat}

/-- velocities of `n` bodies in `d` dimensions -/
abbrev Vel (n d : Nat) := Fin n × Fin d → ℝ

/-- `v.segment<d>( d * i )` -/
def seg (v : Vel n d) (i : Fin n) : Fin d → ℝ := fun c => v (i, c)

/-- `v.segment<d>( d * i ) += w` -/
def addSeg (v : Vel n d) (i : Fin n) (w : Fin d → ℝ) : Vel n d := fun p => if p.1 = i then v p + w p.2 else v p

/-- The contacts between balls, spheres and simple static objects, with the data the impact response uses.
* `ballBall`: ball2d/Constraints/BallBallConstraint.cpp (teleported or not)
* `kick`: ball2d/Constraints/KinematicKickBallBallConstraint.cpp
* `ballPlane`: ball2d/Constraints/BallStaticPlaneConstraint.cpp, `vel` is the velocity of the plane
* `drum`: ball2d/Constraints/BallStaticDrumConstraint.cpp
* `sphereSphere`: rigidbody3d/Constraints/SphereSphereConstraint.cpp; the same functions but for `resolveImpact` (which is missing, so it exits) in
  rigidbody2d/CircleCircleConstraint.cpp
* `planeSphere`: rigidbody3d/Constraints/StaticPlaneSphereConstraint.cpp, `vel` is the velocity of the plane at the contact -/
inductive Con (n d : Nat) where
  | ballBall (i j : Fin n) (nrm : Fin d → ℝ)
  | kick (i j : Fin n) (nrm kick : Fin d → ℝ)
  | ballPlane (i : Fin n) (nrm vel : Fin d → ℝ)
  | drum (i : Fin n) (nrm : Fin d → ℝ)
  | sphereSphere (i j : Fin n) (nrm : Fin d → ℝ)
  | planeSphere (i : Fin n) (nrm vel : Fin d → ℝ)

/-- `evalNdotV`: BallBallConstraint.cpp:39-43, KinematicKickBallBallConstraint.cpp:16-20, BallStaticPlaneConstraint.cpp:31-35,
BallStaticDrumConstraint.cpp:31-36, SphereSphereConstraint.cpp:33-40, StaticPlaneSphereConstraint.cpp:37-41 -/
def Con.evalNdotV : Con n d → Vel n d → ℝ
  | ballBall i j nrm, v => nrm ⬝ᵥ (seg v i - seg v j)
  | kick i j nrm k, v => nrm ⬝ᵥ (seg v i - seg v j - k)
  | ballPlane i nrm u, v => nrm ⬝ᵥ (seg v i - u)
  | drum i nrm, v => nrm ⬝ᵥ seg v i
  | sphereSphere i j nrm, v => nrm ⬝ᵥ (seg v i - seg v j)
  | planeSphere i nrm u, v => nrm ⬝ᵥ (seg v i - u)

/-- `resolveImpact( CoR, M, ndotv, vout, alpha )`: BallBallConstraint.cpp:45-63 (inherited by KinematicKickBallBallConstraint),
SphereSphereConstraint.cpp:42-70, StaticPlaneSphereConstraint.cpp:43-64; scisim/Constraints/Constraint.cpp:133-137 for the contacts that do not
implement it. `m` is the diagonal of `M`, one entry per body. Returns the new velocities and the impulse. -/
noncomputable def Con.resolveImpact (c : Con n d) (CoR : ℝ) (m : Fin n → ℝ) (ndotv : ℝ) (v : Vel n d) : Outcome (Vel n d × ℝ) :=
  match c with
  | ballBall i j nrm | kick i j nrm _ =>
    let alpha := -(1 + CoR) * ndotv / ((1 / m i) + (1 / m j))
    let v := addSeg v i (fun c => nrm c * (alpha / m i))
    let v := addSeg v j (fun c => -(nrm c * (alpha / m j)))
    .ok (v, alpha)
  | sphereSphere i j nrm =>
    let alpha := -(1 + CoR) * ndotv * m i * m j / (m i + m j)
    let v := addSeg v i (fun c => nrm c * alpha / m i)
    let v := addSeg v j (fun c => -(nrm c * alpha / m j))
    .ok (v, alpha)
  | planeSphere i nrm _ =>
    let alpha := -(1 + CoR) * ndotv * m i
    .ok (addSeg v i (fun c => -(1 + CoR) * ndotv * nrm c), alpha)
  | ballPlane _ _ _ | drum _ _ => .exit

/-- `evalgradg`: a column of `N`: BallBallConstraint.cpp:88-100, BallStaticPlaneConstraint.cpp:65-73, BallStaticDrumConstraint.cpp:58-65,
SphereSphereConstraint.cpp:72-88, StaticPlaneSphereConstraint.cpp:66-79. As a dense vector. The code inserts the entries of the two bodies one by
one; with equal bodies (a ball that touches its own image) Eigen's `insert` is given the same place twice, which is not modelled: the theorems ask
for different bodies. -/
def Con.gradg : Con n d → Vel n d
  | ballBall i j nrm | kick i j nrm _ | sphereSphere i j nrm =>
    fun p => (if p.1 = i then nrm p.2 else 0) + (if p.1 = j then -(nrm p.2) else 0)
  | ballPlane i nrm _ | drum i nrm | planeSphere i nrm _ => fun p => if p.1 = i then nrm p.2 else 0

/-- `evalKinematicNormalRelVel`: BallBallConstraint.cpp:163-168, KinematicKickBallBallConstraint.cpp:22-26, BallStaticPlaneConstraint.cpp:123-127,
BallStaticDrumConstraint.cpp:121-127, SphereSphereConstraint.cpp and StaticPlaneSphereConstraint.cpp likewise -/
def Con.kinematicNormalRelVel : Con n d → ℝ
  | ballBall _ _ _ | drum _ _ | sphereSphere _ _ _ => 0
  | kick _ _ nrm k => -(nrm ⬝ᵥ k)
  | ballPlane _ nrm u | planeSphere _ nrm u => -(nrm ⬝ᵥ u)

variable {k : Nat}

/-- scisim/ConstrainedMaps/ImpactMaps/ImpactOperatorUtilities.cpp:11-48 `computeN`, as a dense matrix -/
def computeN (cons : Fin k → Con n d) : Matrix (Fin n × Fin d) (Fin k) ℝ := fun p c => (cons c).gradg p

/-- scisim/ConstrainedMaps/ImpactMaps/ImpactOperatorUtilities.cpp:68-77 `evalKinematicRelativeVelocityN` -/
def evalKinematicRelativeVelocityN (cons : Fin k → Con n d) : Fin k → ℝ := fun c => (cons c).kinematicNormalRelVel

/-- ball2d/Ball2DState.cpp:54-66: `Minv` of `n` bodies with masses `m` -/
noncomputable def ballMinv (m : Fin n → ℝ) : Matrix (Fin n × Fin d) (Fin n × Fin d) ℝ := Matrix.diagonal fun p => 1 / m p.1

/-- the variables of `GaussSeidelOperator::flow` -/
structure GSState (n d k : Nat) where
  /-- `v1` -/
  v : Vel n d
  alpha : Fin k → ℝ
  /-- `collision_happened` -/
  hit : Bool

/-- scisim/ConstrainedMaps/ImpactMaps/GaussSeidelOperator.cpp:41-53: the body of the inner loop -/
noncomputable def gsVisit (cons : Fin k → Con n d) (CoR : Fin k → ℝ) (m : Fin n → ℝ) (tol : ℝ) (s : GSState n d k) (idx : Fin k) :
    Outcome (GSState n d k) :=
  let ndotv := (cons idx).evalNdotV s.v
  if ndotv < -tol then
    ((cons idx).resolveImpact (CoR idx) m ndotv s.v).bind fun r =>
      .ok ⟨r.1, Function.update s.alpha idx (s.alpha idx + r.2), true⟩
  else .ok s

/-- scisim/ConstrainedMaps/ImpactMaps/GaussSeidelOperator.cpp:39-54: one pass over the given contacts -/
noncomputable def gsPass (cons : Fin k → Con n d) (CoR : Fin k → ℝ) (m : Fin n → ℝ) (tol : ℝ) :
    List (Fin k) → GSState n d k → Outcome (GSState n d k)
  | [], s => .ok s
  | idx :: rest, s => (gsVisit cons CoR m tol s idx).bind (gsPass cons CoR m tol rest)

/-- scisim/ConstrainedMaps/ImpactMaps/GaussSeidelOperator.cpp:33-55: the loop, observed for `fuel` passes; the boolean says whether the loop has
ended by itself. -/
noncomputable def gsLoop (cons : Fin k → Con n d) (CoR : Fin k → ℝ) (m : Fin n → ℝ) (tol : ℝ) : Nat → GSState n d k → Outcome (GSState n d k × Bool)
  | 0, s => .ok (s, false)
  | fuel + 1, s =>
    (gsPass cons CoR m tol (List.finRange k) { s with hit := false }).bind fun s' =>
      if s'.hit then gsLoop cons CoR m tol fuel s' else .ok (s', true)

/-- scisim/ConstrainedMaps/ImpactMaps/GaussSeidelOperator.cpp:22-57 `GaussSeidelOperator::flow`, started with the impulses `alpha0` it is given (zero
without warm starting; the assertion that they are zero is compiled out), observed for `fuel` passes -/
noncomputable def gsFlow (cons : Fin k → Con n d) (CoR : Fin k → ℝ) (m : Fin n → ℝ) (tol : ℝ) (v0 : Vel n d) (alpha0 : Fin k → ℝ) (fuel : Nat) :
    Outcome (GSState n d k × Bool) :=
  gsLoop cons CoR m tol fuel ⟨v0, alpha0, true⟩

/-! ## Operators over any degrees of freedom -/

variable {ι : Type} [Fintype ι]

/-- scisim/ConstrainedMaps/ImpactMaps/ImpactOperatorUtilities.cpp:50-66 `computeLCPQPLinearTerm` -/
def lcpLinearTerm (N : Matrix ι (Fin k) ℝ) (nrel CoR : Fin k → ℝ) (v0 v0F : ι → ℝ) : Fin k → ℝ :=
  Nᵀ *ᵥ v0F + nrel + CoR * (Nᵀ *ᵥ v0 + nrel)

/-- What `LCPOperatorQL`, `LCPOperatorIpopt` and `LCPOperatorAPGD` call: a solver for the quadratic program with matrix `Q` and linear term `b`, started
from given impulses. The numerical solvers are parameters of the model (`APGD` is modelled on its own). They warn but do not stop on failure. -/
abbrev LcpSolver := (k : Nat) → Matrix (Fin k) (Fin k) ℝ → (Fin k → ℝ) → (Fin k → ℝ) → (Fin k → ℝ)

/-- LCPOperatorQL.cpp:104-125, LCPOperatorAPGD.cpp:26-44 `flow` -/
def lcpFlow (solve : LcpSolver) (N : Matrix ι (Fin k) ℝ) (Q : Matrix (Fin k) (Fin k) ℝ) (nrel CoR : Fin k → ℝ) (v0 v0F : ι → ℝ) (alpha : Fin k → ℝ) :
    Fin k → ℝ :=
  solve k Q (lcpLinearTerm N nrel CoR v0 v0F) alpha

/-- scisim/ConstrainedMaps/ImpactMaps/GROperator.cpp:61-87: the contacts whose relative velocity is below the threshold, in order -/
noncomputable def grViolated (tol : ℝ) (N : Matrix ι (Fin k) ℝ) (nrel : Fin k → ℝ) (v1 : ι → ℝ) : List (Fin k) :=
  (List.finRange k).filter fun c => decide ((Nᵀ *ᵥ v1 + nrel) c < -tol)

/-- scisim/ConstrainedMaps/ImpactMaps/GROperator.cpp:122-126: `alpha( violated_indices[l] ) += alpha_local( l )` for all `l` in order -/
def grScatter (violated : List (Fin k)) (local_ : Fin violated.length → ℝ) (alpha : Fin k → ℝ) : Fin k → ℝ :=
  (List.finRange violated.length).foldl (fun a l => Function.update a (violated.get l) (a (violated.get l) + local_ l)) alpha

/-- scisim/ConstrainedMaps/ImpactMaps/GROperator.cpp:95-128: one round: the local problem, its solution added to `alpha` -/
def grRound (solve : LcpSolver) (Minv : Matrix ι ι ℝ) (N : Matrix ι (Fin k) ℝ) (nrel CoR : Fin k → ℝ) (violated : List (Fin k)) (v1 : ι → ℝ)
    (alpha : Fin k → ℝ) : Fin k → ℝ :=
  let Nl := N.submatrix id violated.get
  let Ql := Nlᵀ * Minv * Nl
  grScatter violated (lcpFlow solve Nl Ql (nrel ∘ violated.get) (CoR ∘ violated.get) v1 v1 0) alpha

/-- scisim/ConstrainedMaps/ImpactMaps/GROperator.cpp:52-130: the loop, observed for `fuel` rounds; the boolean says whether it has ended by itself -/
noncomputable def grLoop (solve : LcpSolver) (tol : ℝ) (Minv : Matrix ι ι ℝ) (N : Matrix ι (Fin k) ℝ) (nrel CoR : Fin k → ℝ) (v0F : ι → ℝ) :
    Nat → (Fin k → ℝ) → (ι → ℝ) → (Fin k → ℝ) × Bool
  | 0, alpha, _ => (alpha, false)
  | fuel + 1, alpha, v1 =>
    let violated := grViolated tol N nrel v1
    if violated.length = 0 then (alpha, true)
    else
      let alpha := grRound solve Minv N nrel CoR violated v1 alpha
      grLoop solve tol Minv N nrel CoR v0F fuel alpha (v0F + Minv *ᵥ (N *ᵥ alpha))

/-- scisim/ConstrainedMaps/ImpactMaps/GROperator.cpp:33-131 `GROperator::flow`. The impulses passed in are overwritten by zero. `CoR( 0 )` of no contact is
undefined behaviour. -/
noncomputable def grFlow (solve : LcpSolver) (tol : ℝ) (Minv : Matrix ι ι ℝ) (N : Matrix ι (Fin k) ℝ) (nrel CoR : Fin k → ℝ) (v0F : ι → ℝ) (fuel : Nat) :
    Outcome ((Fin k → ℝ) × Bool) :=
  open Classical in
  if h : 0 < k then
    if ∃ i, CoR i ≠ CoR ⟨0, h⟩ then .exit
    else .ok (grLoop solve tol Minv N nrel CoR v0F fuel 0 v0F)
  else .ub

/-- scisim/ConstrainedMaps/ImpactMaps/GRROperator.cpp:31-69 `GRROperator::flow`, over any two operators, given as functions from the restitution
coefficients and the initial impulses to impulses (everything else they are given is the same for both) -/
noncomputable def grrFlow (elastic inelastic : (Fin k → ℝ) → (Fin k → ℝ) → Outcome (Fin k → ℝ)) (CoR alpha : Fin k → ℝ) : Outcome (Fin k → ℝ) :=
  open Classical in
  if h : 0 < k then
    let c := CoR ⟨0, h⟩
    if ∃ i, CoR i ≠ c then .exit
    else if c = 0 then inelastic CoR alpha
    else if c = 1 then elastic CoR alpha
    else (inelastic 0 0).bind fun a0 => (elastic 1 0).bind fun a1 => .ok ((1 - c) • a0 + c • a1)
  else .ub

end Scisim
