import Verif.Model.Sobogus
/-!
# The error by which staggered projections judges its solution

The wrapper around so-bogus is used for evaluating an error only: all bodies take part, and nothing is renumbered. The evaluation itself
(`DualFrictionProblem::evalWith`) is a part of the library the model knows nothing about.
-/

namespace Scisim
namespace Sobogus

open Matrix

variable {K : Type} {k : Kind}

/-- `SobogusFrictionProblem::flattenMass`, scisim/ConstrainedMaps/Sobogus.cpp:753-811. `rows` is `M.rows()`, `M` the values of the mass matrix; the blocks
are stored one after the other in column-major order. -/
def flattenMass [Zero K] (junk : K) (k : Kind) (rows : Nat) (M : DVec K) : Outcome (DVec K) :=
  let nbodies := rows / k.dof
  loopTo (fun b masses =>
    (massBlock k nbodies M b).bind fun A =>
    masses.setBlock (fun e : Fin (k.dof * k.dof) => k.dof * k.dof * b + e) fun e => A e.modNat e.divNat)
    nbodies (.alloc junk (k.dof * k.dof * nbodies))

/-- What `StaggeredProjections::solve` sets up for computing errors, scisim/ConstrainedMaps/StaggeredProjections.cpp:179-193, with
`SobogusFrictionProblem::initialize`, scisim/ConstrainedMaps/Sobogus.cpp:39-275 -/
def errorProblem [Ring K] (junk : K) (x : Input K k) : Outcome (Primal K k) :=
  (kinematicRelVel x.q0 x.v0 x.active x.bases (.alloc junk x.alpha.size) (.alloc junk x.beta.size)).bind fun rel =>
  (flattenMass junk k (k.dof * x.nbodies) x.M).bind fun masses =>
  setUp junk x.active x.bases masses x.q0 x.v0 x.CoR x.mu rel.1 rel.2

/-- `contact_bases.block( 0, j, dofs_per_body, dofs_per_body )` -/
def Bases.blockAt (B : Bases K k) (j : Nat) : Outcome (Matrix (Fin k.amb) (Fin k.amb) K) :=
  if j + k.amb ≤ B.cols then .ok (Matrix.of fun a i => B.val a (j + i)) else .ub

/-- `basis.col( j )` -/
def basisCol (E : Matrix (Fin k.amb) (Fin k.amb) K) (j : Nat) : Outcome (Fin k.amb → K) :=
  if h : j < k.amb then .ok fun i => E i ⟨j, h⟩ else .ub

/-- One turn of the loop of `computePerContactForce`, scisim/ConstrainedMaps/StaggeredProjections.cpp:114-135 -/
def contactForce [Ring K] (B : Bases K k) (alpha beta : DVec K) (samples c : Nat) (r : DVec K) : Outcome (DVec K) :=
  (B.blockAt ((samples + 1) * c)).bind fun E =>
  (alpha.get c).bind fun a =>
  (addBlock r (fun i : Fin k.amb => k.amb * c + i) fun i => a * E i 0).bind fun r =>
  loopTo (fun s r =>
    (beta.get (samples * c + s)).bind fun b =>
    (basisCol E (s + 1)).bind fun t =>
    addBlock r (fun i : Fin k.amb => k.amb * c + i) fun i => b * t i) samples r

/-- `computePerContactForce`, scisim/ConstrainedMaps/StaggeredProjections.cpp:102-136. Without contacts the number of friction samples is computed by a
division by zero. -/
def contactForces [Ring K] (B : Bases K k) (alpha beta : DVec K) : Outcome (DVec K) :=
  if alpha.size = 0 then .ub else
  loopTo (contactForce B alpha beta (beta.size / alpha.size)) alpha.size ⟨k.amb * alpha.size, fun _ => 0⟩

/-- `computeSobogusError`, scisim/ConstrainedMaps/StaggeredProjections.cpp:138-143, with `computeError`, scisim/ConstrainedMaps/Sobogus.cpp:612-640, and
`evalInfNormError`, scisim/ConstrainedMaps/bogus/Ball2DSobogusInterface.cpp:150-170, RigidBody2DSobogusInterface.cpp:147-167,
RigidBody3DSobogusInterface.cpp:147-167. `eval` is `evalWith` of the library, with the forces in the bases of the contacts. -/
def sobogusError [Ring K] (eval : Primal K k → (Nat → K) → K) (p : Primal K k) (B : Bases K k) (alpha beta : DVec K) : Outcome K :=
  (contactForces B alpha beta).bind fun r => .ok (eval p (toLocal p r).val)

end Sobogus
end Scisim
