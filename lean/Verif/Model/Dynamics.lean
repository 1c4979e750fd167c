import Mathlib.Data.Fin.VecNotation
import Mathlib.Algebra.BigOperators.Fin
import Mathlib.Analysis.Real.Sqrt
import Mathlib.Analysis.SpecialFunctions.Pow.Real
/-!
# Unconstrained motion: forces, energies, Verlet and symplectic Euler

A flat vector with `d` entries for each of `n` bodies (`VectorXs`, entry `d * i + k`) is a function of the body `i` and the component `k`;
`segment<d>( d * i )` is the entry `i`. Scalars are real numbers. The mass matrices of the two-dimensional systems are diagonal (`createM`,
ball2d/Ball2DState.cpp:40-66; `generateM`, rigidbody2d/RigidBody2DState.cpp:16-44) and are represented by their diagonals, the contents of
`valuePtr()`. A loop `for( i ) U += f( i )` that starts from zero is a finite sum.
-/

namespace Scisim

/-- A flat vector of `n` bodies with `d` components each. -/
abbrev VecX (n d : Nat) := Fin n → Fin d → ℝ

/-- The parts of `FlowableSystem` the integrators use, scisim/UnconstrainedMaps/FlowableSystem.h:6-60 -/
structure FSys (n d : Nat) where
  computeForce : VecX n d → VecX n d → ℝ → VecX n d
  /-- diagonal of `Minv()` -/
  Minv : VecX n d
  isKinematicallyScripted : Fin n → Bool

variable {n d : Nat}

/-- ball2d/VerletMap.cpp:15-41 `VerletMap::flow` -/
noncomputable def ballVerlet (s : FSys n d) (iteration : Nat) (dt : ℝ) (q0 v0 : VecX n d) : VecX n d × VecX n d :=
  let nextTime := iteration * dt
  let F := s.computeForce q0 v0 nextTime
  let v1 := v0 + ((1 / 2 : ℝ) * dt) • (s.Minv * F)
  let q1 := q0 + dt • v1
  let F := s.computeForce q1 v0 nextTime
  (q1, v1 + ((1 / 2 : ℝ) * dt) • (s.Minv * F))

/-- ball2d/SymplecticEulerMap.cpp:21-32 `SymplecticEulerMap::flow` -/
noncomputable def ballSymplecticEuler (s : FSys n d) (iteration : Nat) (dt : ℝ) (q0 v0 : VecX n d) : VecX n d × VecX n d :=
  let F := s.computeForce q0 v0 (iteration * dt)
  let v1 := v0 + dt • (s.Minv * F)
  (q0 + dt • v1, v1)

/-- rigidbody2d/VerletMap.cpp:15-25 `zeroForcesOnKinematicBodies` -/
def zeroForcesOnKinematicBodies (s : FSys n d) (F : VecX n d) : VecX n d :=
  fun i => if s.isKinematicallyScripted i then 0 else F i

/-- rigidbody2d/VerletMap.cpp:27-55 `VerletMap::flow` -/
noncomputable def rb2dVerlet (s : FSys n d) (iteration : Nat) (dt : ℝ) (q0 v0 : VecX n d) : VecX n d × VecX n d :=
  let startTime := ((iteration : ℝ) - 1) * dt
  let F := zeroForcesOnKinematicBodies s (s.computeForce q0 v0 startTime)
  let v1 := v0 + ((1 / 2 : ℝ) * dt) • (s.Minv * F)
  let q1 := q0 + dt • v1
  let F := zeroForcesOnKinematicBodies s (s.computeForce q1 v0 startTime)
  (q1, v1 + ((1 / 2 : ℝ) * dt) • (s.Minv * F))

/-- rigidbody2d/SymplecticEulerMap.cpp:15-37 `SymplecticEulerMap::flow` -/
noncomputable def rb2dSymplecticEuler (s : FSys n d) (iteration : Nat) (dt : ℝ) (q0 v0 : VecX n d) : VecX n d × VecX n d :=
  let F := zeroForcesOnKinematicBodies s (s.computeForce q0 v0 (((iteration : ℝ) - 1) * dt))
  let v1 := v0 + dt • (s.Minv * F)
  (q0 + dt • v1, v1)

/-- Consecutive steps with iteration numbers `start + 1`, `start + 2`, …, as the main loop performs them. -/
def runSteps {σ : Type} (flow : Nat → σ → σ) (start : Nat) : Nat → σ → σ
  | 0, s => s
  | k + 1, s => flow (start + k + 1) (runSteps flow start k s)

/-! ## Forces of the ball simulation -/

/-- `squaredNorm()` of a 2-vector -/
def sqNorm2 (a : Fin 2 → ℝ) : ℝ := a 0 * a 0 + a 1 * a 1

/-- `dot` of 2-vectors -/
def dot2 (a b : Fin 2 → ℝ) : ℝ := a 0 * b 0 + a 1 * b 1

/-- `MathUtilities::cross`, scisim/Math/MathUtilities.h -/
def cross2 (a b : Fin 2 → ℝ) : ℝ := a 0 * b 1 - a 1 * b 0

/-- ball2d/Forces/Ball2DGravityForce.cpp:22-34 `computePotential` -/
noncomputable def gravityPotential (g : Fin 2 → ℝ) (q : VecX n 2) (M : VecX n 2) : ℝ := ∑ i, -(M i 0) * dot2 g (q i)

/-- ball2d/Forces/Ball2DGravityForce.cpp:36-46 `computeForce` -/
noncomputable def gravityForce (g : Fin 2 → ℝ) (M : VecX n 2) (result : VecX n 2) : VecX n 2 := fun i => result i + M i 0 • g

/-- The pairs of the double loop `for ball0, for ball1 = ball0 + 1, …` in order. -/
def ballLoop (n : Nat) : List (Fin n × Fin n) :=
  (List.finRange n).flatMap fun i => ((List.finRange n).filter fun j => decide (i < j)).map fun j => (i, j)

/-- ball2d/Forces/PenaltyForce.cpp:36-49: the contribution of a pair to the potential -/
noncomputable def penaltyPairPotential (k power : ℝ) (q : VecX n 2) (r : Fin n → ℝ) (p : Fin n × Fin n) : ℝ :=
  let R := r p.1 + r p.2
  let x := q p.2 - q p.1
  if sqNorm2 x > R * R then 0
  else
    let delta := Real.sqrt (sqNorm2 x) - R
    1 / 2 * k * (-delta) ^ power

/-- ball2d/Forces/PenaltyForce.cpp:25-54 `computePotential` -/
noncomputable def penaltyPotential (k power : ℝ) (q : VecX n 2) (r : Fin n → ℝ) : ℝ :=
  (ballLoop n).foldl (fun U p => U + penaltyPairPotential k power q r p) 0

/-- ball2d/Forces/PenaltyForce.cpp:66-86: the force on the second ball of a pair, `none` if the pair is skipped. Where the centres coincide
the code divides by zero; the division here is then 0 and statements about it exclude that case. -/
noncomputable def penaltyPairForce (k power : ℝ) (q : VecX n 2) (r : Fin n → ℝ) (p : Fin n × Fin n) : Option (Fin 2 → ℝ) :=
  let R := r p.1 + r p.2
  let x := q p.2 - q p.1
  let d := sqNorm2 x
  if d > R * R then none
  else
    let d := Real.sqrt d
    let nrm := fun c => x c / d
    let d := d - R
    some ((1 / 2 * k * power * (-d) ^ (power - 1)) • nrm)

/-- ball2d/Forces/PenaltyForce.cpp:66-90: one pass of the inner loop -/
noncomputable def penaltyPairAdd (k power : ℝ) (q : VecX n 2) (r : Fin n → ℝ) (result : VecX n 2) (p : Fin n × Fin n) : VecX n 2 :=
  match penaltyPairForce k power q r p with
  | none => result
  | some F =>
    let result := Function.update result p.2 (result p.2 + F)
    Function.update result p.1 (result p.1 - F)

/-- ball2d/Forces/PenaltyForce.cpp:56-93 `computeForce` -/
noncomputable def penaltyForce (k power : ℝ) (q : VecX n 2) (r : Fin n → ℝ) (result : VecX n 2) : VecX n 2 :=
  (ballLoop n).foldl (penaltyPairAdd k power q r) result

/-- `Ball2DForce`, ball2d/Forces/Ball2DForce.h -/
inductive BallForce where
  | gravity (g : Fin 2 → ℝ)
  | penalty (k power : ℝ)

/-- the virtual `computeForce` -/
noncomputable def BallForce.computeForce (f : BallForce) (q : VecX n 2) (M : VecX n 2) (r : Fin n → ℝ) (result : VecX n 2) : VecX n 2 :=
  match f with
  | .gravity g => gravityForce g M result
  | .penalty k p => penaltyForce k p q r result

/-- the virtual `computePotential` -/
noncomputable def BallForce.computePotential (f : BallForce) (q : VecX n 2) (M : VecX n 2) (r : Fin n → ℝ) : ℝ :=
  match f with
  | .gravity g => gravityPotential g q M
  | .penalty k p => penaltyPotential k p q r

/-- The parts of `Ball2DState` that matter for unconstrained motion, ball2d/Ball2DState.h. `M` and `Minv` are the diagonals. -/
structure BallSim (n : Nat) where
  r : Fin n → ℝ
  fixed : Fin n → Bool
  M : VecX n 2
  Minv : VecX n 2
  forces : List BallForce

/-- ball2d/Ball2DState.cpp:40-77 `createM`, `createMinv`, `setMass` -/
noncomputable def BallSim.setMass (s : BallSim n) (m : VecX n 2) : BallSim n := { s with M := m, Minv := fun i k => 1 / m i k }

/-- ball2d/Ball2DSim.cpp:75-81 `computeForce` with `Ball2DState::accumulateForce`, ball2d/Ball2DState.cpp:251-257 -/
noncomputable def BallSim.computeForce (s : BallSim n) (q : VecX n 2) : VecX n 2 :=
  s.forces.foldl (fun F f => f.computeForce q s.M s.r F) 0

/-- `Ball2DSim` as a `FlowableSystem`; `isKinematicallyScripted` returns `false`, ball2d/Ball2DSim.cpp:69-73 -/
noncomputable def BallSim.sys (s : BallSim n) : FSys n 2 := ⟨fun q _ _ => s.computeForce q, s.Minv, fun _ => false⟩

/-- ball2d/Ball2DState.cpp:169-172 `computeKineticEnergy` (rigidbody2d/RigidBody2DSim.cpp:42-45) -/
noncomputable def kineticEnergy (M v : VecX n d) : ℝ := 1 / 2 * ∑ i, ∑ k, v i k * (M i k * v i k)

/-- ball2d/Ball2DState.cpp:174-182 `computePotentialEnergy` -/
noncomputable def BallSim.potentialEnergy (s : BallSim n) (q : VecX n 2) : ℝ :=
  s.forces.foldl (fun U f => U + f.computePotential q s.M s.r) 0

/-- ball2d/Ball2DState.cpp:184-187 `computeTotalEnergy` -/
noncomputable def BallSim.totalEnergy (s : BallSim n) (q v : VecX n 2) : ℝ := kineticEnergy s.M v + s.potentialEnergy q

/-- ball2d/Ball2DState.cpp:189-201 `computeMomentum` (ball2d/Ball2DSim.cpp:122-132) -/
noncomputable def BallSim.momentum (s : BallSim n) (v : VecX n 2) : Fin 2 → ℝ := ∑ i, s.M i 0 • v i

/-- ball2d/Ball2DState.cpp:203-215 `computeAngularMomentum` (ball2d/Ball2DSim.cpp:134-144) -/
noncomputable def BallSim.angularMomentum (s : BallSim n) (q v : VecX n 2) : ℝ := ∑ i, s.M i 0 * cross2 (q i) (v i)

/-! ## The rigid body simulation in two dimensions -/

/-- first two of three components, `segment<2>( 3 * i )` -/
def head2 (a : Fin 3 → ℝ) : Fin 2 → ℝ := ![a 0, a 1]

/-- rigidbody2d/NearEarthGravityForce.cpp:20-36 `computePotential` -/
noncomputable def rbGravityPotential (g : Fin 2 → ℝ) (q : VecX n 3) (M : VecX n 3) : ℝ := ∑ i, -(M i 0) * dot2 g (head2 (q i))

/-- rigidbody2d/NearEarthGravityForce.cpp:38-51 `computeForce` -/
noncomputable def rbGravityForce (g : Fin 2 → ℝ) (M : VecX n 3) (result : VecX n 3) : VecX n 3 :=
  fun i => ![result i 0 + M i 0 * g 0, result i 1 + M i 0 * g 1, result i 2]

/-- The parts of `RigidBody2DState` that matter for unconstrained motion, rigidbody2d/RigidBody2DState.h. Forces are gravity forces, the only
kind there is. -/
structure RbSim (n : Nat) where
  fixed : Fin n → Bool
  M : VecX n 3
  Minv : VecX n 3
  forces : List (Fin 2 → ℝ)

/-- rigidbody2d/RigidBody2DState.cpp:16-44, 83-98: the mass matrices of a new state -/
noncomputable def RbSim.create (m : VecX n 3) (fixed : Fin n → Bool) (forces : List (Fin 2 → ℝ)) : RbSim n :=
  ⟨fixed, m, fun i k => 1 / m i k, forces⟩

/-- rigidbody2d/RigidBody2DSim.cpp:104-113 `computeForce` -/
noncomputable def RbSim.computeForce (s : RbSim n) : VecX n 3 := s.forces.foldl (fun F g => rbGravityForce g s.M F) 0

/-- `RigidBody2DSim` as a `FlowableSystem`; rigidbody2d/RigidBody2DSim.cpp:99-102 `isKinematicallyScripted` -/
noncomputable def RbSim.sys (s : RbSim n) : FSys n 3 := ⟨fun _ _ _ => s.computeForce, s.Minv, s.fixed⟩

/-- rigidbody2d/RigidBody2DSim.cpp:47-56 `computePotentialEnergy` -/
noncomputable def RbSim.potentialEnergy (s : RbSim n) (q : VecX n 3) : ℝ := s.forces.foldl (fun U g => U + rbGravityPotential g q s.M) 0

/-- rigidbody2d/RigidBody2DSim.cpp:58-61 `computeTotalEnergy` -/
noncomputable def RbSim.totalEnergy (s : RbSim n) (q v : VecX n 3) : ℝ := kineticEnergy s.M v + s.potentialEnergy q

/-- rigidbody2d/RigidBody2DSim.cpp:151-160 `computeMomentum` -/
noncomputable def RbSim.momentum (s : RbSim n) (v : VecX n 3) : Fin 2 → ℝ := ∑ i, s.M i 0 • head2 (v i)

/-- rigidbody2d/RigidBody2DSim.cpp:162-177 `computeAngularMomentum` -/
noncomputable def RbSim.angularMomentum (s : RbSim n) (q v : VecX n 3) : ℝ :=
  ∑ i, s.M i 0 * cross2 (head2 (q i)) (head2 (v i)) + ∑ i, s.M i 2 * v i 2

end Scisim
