import Mathlib.Data.Matrix.Basic
import Mathlib.LinearAlgebra.Matrix.Notation
import Mathlib.LinearAlgebra.Matrix.Determinant.Basic
import Mathlib.LinearAlgebra.CrossProduct
import Mathlib.Analysis.SpecialFunctions.Trigonometric.Basic
import Verif.Model.Dynamics
/-!
# Unconstrained motion of rigid bodies in three dimensions

Scalars are real numbers. `q` is a flat vector of `3 n` positions followed by `9 n` entries of row-major rotation matrices; here it is a function
that gives a position and a matrix for each body. `v` and forces have `3 n` linear and `3 n` angular entries; here a pair of vectors for each
body. `M0` holds the masses and the principal moments `I0`; `M` the masses and world inertia tensors.
-/

namespace Scisim

abbrev Vec3 := Fin 3 → ℝ
abbrev Mat3 := Matrix (Fin 3) (Fin 3) ℝ
/-- positions and orientations -/
abbrev Conf3 (n : Nat) := Fin n → Vec3 × Mat3
/-- linear and angular velocities, momenta or forces -/
abbrev Vel3 (n : Nat) := Fin n → Vec3 × Vec3

/-! ## Eigen's rotation types -/

/-- Eigen `AngleAxis::toRotationMatrix()` (library code, Eigen/src/Geometry/AngleAxis.h), which `rotation * matrix`, `rotation * vector` and
`matrix * rotation` use. -/
noncomputable def angleAxisMatrix (angle : ℝ) (axis : Vec3) : Mat3 :=
  let s := Real.sin angle
  let c := Real.cos angle
  let x := axis 0
  let y := axis 1
  let z := axis 2
  !![(1 - c) * x * x + c, (1 - c) * x * y - s * z, (1 - c) * x * z + s * y;
     (1 - c) * x * y + s * z, (1 - c) * y * y + c, (1 - c) * y * z - s * x;
     (1 - c) * x * z - s * y, (1 - c) * y * z + s * x, (1 - c) * z * z + c]

/-- Eigen `AngleAxis` -/
structure AngleAxis where
  angle : ℝ
  axis : Vec3

/-- Eigen `AngleAxis::inverse()` -/
def AngleAxis.inverse (a : AngleAxis) : AngleAxis := ⟨-a.angle, a.axis⟩

/-- Eigen `AngleAxis::toRotationMatrix()` -/
noncomputable def AngleAxis.toMatrix (a : AngleAxis) : Mat3 := angleAxisMatrix a.angle a.axis

/-- Eigen `Quaternion<scalar>` -/
structure Quat where
  w : ℝ
  x : ℝ
  y : ℝ
  z : ℝ

/-- squared norm of the coefficients -/
def Quat.normSq (q : Quat) : ℝ := q.w * q.w + q.x * q.x + q.y * q.y + q.z * q.z

/-- Eigen `Quaternion::toRotationMatrix()` (library code, Eigen/src/Geometry/Quaternion.h) -/
def Quat.toMatrix (q : Quat) : Mat3 :=
  !![1 - (2 * q.y * q.y + 2 * q.z * q.z), 2 * q.y * q.x - 2 * q.z * q.w, 2 * q.z * q.x + 2 * q.y * q.w;
     2 * q.y * q.x + 2 * q.z * q.w, 1 - (2 * q.x * q.x + 2 * q.z * q.z), 2 * q.z * q.y - 2 * q.x * q.w;
     2 * q.z * q.x - 2 * q.y * q.w, 2 * q.z * q.y + 2 * q.x * q.w, 1 - (2 * q.x * q.x + 2 * q.y * q.y)]

/-- Eigen `Quaternion( matrix )` (library code, `quaternionbase_assign_impl`, Eigen/src/Geometry/Quaternion.h) -/
noncomputable def Quat.ofMatrix (m : Mat3) : Quat :=
  let t := m 0 0 + m 1 1 + m 2 2
  if t > 0 then
    let t := Real.sqrt (t + 1)
    let s := 1 / 2 / t
    ⟨1 / 2 * t, (m 2 1 - m 1 2) * s, (m 0 2 - m 2 0) * s, (m 1 0 - m 0 1) * s⟩
  else if m 2 2 > (if m 1 1 > m 0 0 then m 1 1 else m 0 0) then
    let t := Real.sqrt (m 2 2 - m 0 0 - m 1 1 + 1)
    let s := 1 / 2 / t
    ⟨(m 1 0 - m 0 1) * s, (m 0 2 + m 2 0) * s, (m 1 2 + m 2 1) * s, 1 / 2 * t⟩
  else if m 1 1 > m 0 0 then
    let t := Real.sqrt (m 1 1 - m 2 2 - m 0 0 + 1)
    let s := 1 / 2 / t
    ⟨(m 0 2 - m 2 0) * s, (m 0 1 + m 1 0) * s, 1 / 2 * t, (m 2 1 + m 1 2) * s⟩
  else
    let t := Real.sqrt (m 0 0 - m 1 1 - m 2 2 + 1)
    let s := 1 / 2 / t
    ⟨(m 2 1 - m 1 2) * s, 1 / 2 * t, (m 1 0 + m 0 1) * s, (m 2 0 + m 0 2) * s⟩

/-- Eigen `Quaternion::normalize()` -/
noncomputable def Quat.normalize (q : Quat) : Quat :=
  let r := Real.sqrt q.normSq
  ⟨q.w / r, q.x / r, q.y / r, q.z / r⟩

/-! ## The three integrators -/

/-- The parts of `FlowableSystem` the integrators use (scisim/UnconstrainedMaps/FlowableSystem.h). -/
structure FSys3 (n : Nat) where
  computeForce : Conf3 n → Vel3 n → ℝ → Vel3 n
  /-- linear part of `M0` and `M` -/
  m : Fin n → ℝ
  /-- angular part of `M0` -/
  I0 : Fin n → Vec3
  /-- angular part of `M` -/
  I : Fin n → Mat3
  /-- angular part of `Minv` -/
  Iinv : Fin n → Mat3
  isKinematicallyScripted : Fin n → Bool

variable {n : Nat}

/-- rigidbody3d/UnconstrainedMaps/SplitHamMap.cpp:108-131: one of the five rotations about a principal axis: `k` is the axis, `h` the step. -/
noncomputable def splitAxis (h : ℝ) (I : Vec3) (k : Fin 3) (x : Mat3 × Vec3) : Mat3 × Vec3 :=
  let R : AngleAxis := ⟨h * x.2 k / I k, -(Pi.single k 1)⟩
  (x.1 * R.inverse.toMatrix, R.toMatrix.mulVec x.2)

/-- rigidbody3d/UnconstrainedMaps/SplitHamMap.cpp:98-131: the new orientation and body momentum -/
noncomputable def splitSteps (dt : ℝ) (I : Vec3) (x : Mat3 × Vec3) : Mat3 × Vec3 :=
  let x := splitAxis (1 / 2 * dt) I 2 x
  let x := splitAxis (1 / 2 * dt) I 1 x
  let x := splitAxis dt I 0 x
  let x := splitAxis (1 / 2 * dt) I 1 x
  splitAxis (1 / 2 * dt) I 2 x

/-- rigidbody3d/UnconstrainedMaps/SplitHamMap.cpp:86-131: the new orientation of a body with world angular momentum `L` -/
noncomputable def splitRotate (dt : ℝ) (I : Vec3) (R0 : Mat3) (L : Vec3) : Mat3 :=
  (splitSteps dt I (R0, R0.transpose.mulVec L)).1

/-- rigidbody3d/UnconstrainedMaps/DMVMap.cpp:30-44: the loop of `solveDMV`, `k` passes left -/
noncomputable def dmvLoop (eps : ℝ) (am fac : Vec3) : Nat → Vec3 → Vec3
  | 0, cm => cm
  | k + 1, cm =>
    let calpha := cm 0 * cm 0 + 1 + cm 1 * cm 1 + cm 2 * cm 2
    let c0 := calpha * am 0 + fac 0 * cm 1 * cm 2
    let c1 := calpha * am 1 + fac 1 * c0 * cm 2
    let c2 := calpha * am 2 + fac 2 * c0 * c1
    let err := |cm 0 - c0| + |cm 1 - c1| + |cm 2 - c2|
    if err ≤ eps then ![c0, c1, c2] else dmvLoop eps am fac k ![c0, c1, c2]

/-- rigidbody3d/UnconstrainedMaps/DMVMap.cpp:17-44: the solution `cm` of `solveDMV` -/
noncomputable def dmvCm (am : Vec3) (h : ℝ) (I0 : Vec3) : Vec3 :=
  let eps := |h * 1e-15|
  let ha := h / 2
  let fac : Vec3 := ![(I0 1 - I0 2) / I0 0, (I0 2 - I0 0) / I0 1, (I0 0 - I0 1) / I0 2]
  let ami : Vec3 := ![am 0 * ha / I0 0, am 1 * ha / I0 1, am 2 * ha / I0 2]
  let c0 := ami 0 + fac 0 * ami 1 * ami 2
  let c1 := ami 1 + fac 1 * c0 * ami 2
  let c2 := ami 2 + fac 2 * c0 * c1
  dmvLoop eps ami fac 50 ![c0, c1, c2]

/-- rigidbody3d/UnconstrainedMaps/DMVMap.cpp:50-59: the update of the quaternion -/
noncomputable def dmvUpdate (q : Quat) (cm : Vec3) : Quat :=
  Quat.normalize
    ⟨q.w - cm 0 * q.x - cm 1 * q.y - cm 2 * q.z,
     q.x + cm 0 * q.w + cm 2 * q.y - cm 1 * q.z,
     q.y + cm 1 * q.w + cm 0 * q.z - cm 2 * q.x,
     q.z + cm 2 * q.w + cm 1 * q.x - cm 0 * q.y⟩

/-- rigidbody3d/UnconstrainedMaps/DMVMap.cpp:70-101 `DMV` -/
noncomputable def dmvRotate (dt : ℝ) (I : Vec3) (R0 : Mat3) (L : Vec3) : Mat3 :=
  (dmvUpdate (Quat.ofMatrix R0) (dmvCm (R0.transpose.mulVec L) dt I)).toMatrix

/-- rigidbody3d/UnconstrainedMaps/SplitHamMap.cpp:17-182 `SplitHamMap::flow` with `rotate := splitRotate`, and
rigidbody3d/UnconstrainedMaps/DMVMap.cpp:103-207 `DMVMap::flow` with `rotate := dmvRotate`; the two functions are the same text but for the
rotation. For a scripted body the final conversion from momentum to velocity is skipped, so `v1` holds its momentum. -/
noncomputable def hamFlow (rotate : ℝ → Vec3 → Mat3 → Vec3 → Mat3) (s : FSys3 n) (iteration : Nat) (dt : ℝ) (q0 : Conf3 n) (v0 : Vel3 n) :
    Conf3 n × Vel3 n :=
  let nextTime := iteration * dt
  let p : Vel3 n := fun i => (s.m i • (v0 i).1, (s.I i).mulVec (v0 i).2)
  let F := s.computeForce q0 v0 nextTime
  let p : Vel3 n := fun i => if s.isKinematicallyScripted i then p i else p i + ((1 / 2 : ℝ) * dt) • F i
  let q1 : Conf3 n := fun i =>
    if s.isKinematicallyScripted i then q0 i
    else ((q0 i).1 + (dt • (v0 i).1 + ((1 / 2 : ℝ) * dt * dt) • ((1 / s.m i) • (F i).1)), rotate dt (s.I0 i) (q0 i).2 (p i).2)
  let F := s.computeForce q1 v0 nextTime
  let p : Vel3 n := fun i => if s.isKinematicallyScripted i then p i else p i + ((1 / 2 : ℝ) * dt) • F i
  (q1, fun i =>
    if s.isKinematicallyScripted i then p i
    else (fun k => (p i).1 k / s.m i,
      ((q1 i).2 * Matrix.diagonal (fun k => 1 / s.I0 i k) * (q1 i).2.transpose).mulVec (p i).2))

/-- rigidbody3d/UnconstrainedMaps/ExponentialEulerMap.cpp:13-32 `projectOrientation`. `svd` is the library's singular value decomposition
`( U, σ, V )`, an unspecified function; statements assume that its result is one. -/
def projectOrientation (svd : Mat3 → Mat3 × Vec3 × Mat3) (R : Mat3) : Mat3 := (svd R).1 * (svd R).2.2.transpose

/-- rigidbody3d/UnconstrainedMaps/ExponentialEulerMap.cpp:61-71: the orientation before projection, column by column -/
def eulerOrientation (dt : ℝ) (omega : Vec3) (R0 : Mat3) : Mat3 :=
  Matrix.of fun i j => R0 i j + dt * (crossProduct omega (fun k => R0 k j)) i

/-- rigidbody3d/UnconstrainedMaps/ExponentialEulerMap.cpp:34-94 `ExponentialEulerMap::flow` -/
noncomputable def exponentialEulerFlow (svd : Mat3 → Mat3 × Vec3 × Mat3) (s : FSys3 n) (iteration : Nat) (dt : ℝ) (q0 : Conf3 n) (v0 : Vel3 n) :
    Conf3 n × Vel3 n :=
  let F := s.computeForce q0 v0 (iteration * dt)
  let A : Vel3 n := fun i => ((1 / s.m i) • (F i).1, (s.Iinv i).mulVec (F i).2)
  (fun i => ((q0 i).1 + dt • (v0 i).1, projectOrientation svd (eulerOrientation dt (v0 i).2 (q0 i).2)), v0 + dt • A)

/-- rigidbody3d/UnconstrainedMaps/IntegrationTools.cpp:4-34 `updateOrientation` -/
noncomputable def updateOrientation (dt : ℝ) (omega : Vec3) (Q0 : Mat3) : Mat3 :=
  let theta := Real.sqrt (omega 0 * omega 0 + omega 1 * omega 1 + omega 2 * omega 2)
  let axis : Vec3 := if theta ≠ 0 then fun k => omega k / theta else omega
  (AngleAxis.mk (theta * dt) axis).toMatrix * Q0

/-- rigidbody3d/UnconstrainedMaps/IntegrationTools.cpp:36-70 `IntegrationTools::exponentialEuler`, the configuration update of the impact
maps (rigidbody3d/RigidBody3DSim.cpp:196-199 `linearInertialConfigurationUpdate`) -/
noncomputable def exponentialEuler (q0 : Conf3 n) (v0 : Vel3 n) (fixed : Fin n → Bool) (dt : ℝ) : Conf3 n := fun i =>
  if fixed i then q0 i else ((q0 i).1 + dt • (v0 i).1, updateOrientation dt (v0 i).2 (q0 i).2)

/-! ## The simulation -/

/-- What does not change during a simulation: masses, principal moments, flags, forces (`RigidBody3DState`). -/
structure Rb3Params (n : Nat) where
  m : Fin n → ℝ
  I0 : Fin n → Vec3
  fixed : Fin n → Bool
  computeForce : Conf3 n → Vel3 n → ℝ → Vel3 n

/-- What does change (`RigidBody3DState`): configuration, velocity, and the world inertia tensors of `M` and `Minv`. -/
structure Rb3State (n : Nat) where
  q : Conf3 n
  v : Vel3 n
  I : Fin n → Mat3
  Iinv : Fin n → Mat3

/-- rigidbody3d/RigidBody3DState.cpp:428-462 `updateMandMinv` -/
noncomputable def Rb3State.updateMandMinv (p : Rb3Params n) (s : Rb3State n) : Rb3State n :=
  { s with
    I := fun i => (s.q i).2 * Matrix.diagonal (p.I0 i) * (s.q i).2.transpose
    Iinv := fun i => (s.q i).2 * Matrix.diagonal (fun k => 1 / p.I0 i k) * (s.q i).2.transpose }

/-- rigidbody3d/RigidBody3DState.cpp:242-308 `setState` with 140-240: the mass matrices of a new state -/
noncomputable def Rb3State.setState (p : Rb3Params n) (q : Conf3 n) (v : Vel3 n) : Rb3State n :=
  ⟨q, v, fun i => (q i).2 * Matrix.diagonal (p.I0 i) * (q i).2.transpose,
    fun i => (q i).2 * Matrix.diagonal (fun k => 1 / p.I0 i k) * (q i).2.transpose⟩

/-- `RigidBody3DSim` as a `FlowableSystem`, rigidbody3d/RigidBody3DSim.cpp:163-219 -/
def Rb3State.sys (p : Rb3Params n) (s : Rb3State n) : FSys3 n := ⟨p.computeForce, p.m, p.I0, s.I, s.Iinv, p.fixed⟩

/-- The three unconstrained maps of the three-dimensional simulation -/
inductive Map3 where
  | splitHam
  | dmv
  | exponentialEuler (svd : Mat3 → Mat3 × Vec3 × Mat3)

/-- The virtual `UnconstrainedMap::flow` -/
noncomputable def Map3.flow (u : Map3) (s : FSys3 n) (iteration : Nat) (dt : ℝ) (q0 : Conf3 n) (v0 : Vel3 n) : Conf3 n × Vel3 n :=
  match u with
  | .splitHam => hamFlow splitRotate s iteration dt q0 v0
  | .dmv => hamFlow dmvRotate s iteration dt q0 v0
  | .exponentialEuler svd => exponentialEulerFlow svd s iteration dt q0 v0

/-- rigidbody3d/RigidBody3DSim.cpp:407-480 `RigidBody3DSim::flow` without impacts. Call backs, portals and the boundary treatment are left out. -/
noncomputable def Rb3State.step (p : Rb3Params n) (u : Map3) (dt : ℝ) (iteration : Nat) (s : Rb3State n) : Rb3State n :=
  let x := u.flow (s.sys p) iteration dt s.q s.v
  { s with q := x.1, v := x.2 }.updateMandMinv p

/-- rigidbody3d/RigidBody3DSim.cpp:169-181 `computeForce` with gravity forces, rigidbody3d/Forces/NearEarthGravityForce.cpp:39-53: the
configuration argument is ignored. -/
noncomputable def gravityForce3 (m : Fin n → ℝ) (gs : List Vec3) : Conf3 n → Vel3 n → ℝ → Vel3 n := fun _ _ _ =>
  gs.foldl (fun F g => fun i => ((F i).1 + m i • g, (F i).2)) 0

/-- one body's share of rigidbody3d/RigidBody3DSim.cpp:221-228 `computeMomentum` -/
def Rb3State.linearMomentum (p : Rb3Params n) (s : Rb3State n) (i : Fin n) : Vec3 := p.m i • (s.v i).1

/-- one body's share of the second loop of rigidbody3d/RigidBody3DSim.cpp:230-243 `computeAngularMomentum` -/
def Rb3State.spin (s : Rb3State n) (i : Fin n) : Vec3 := (s.I i).mulVec (s.v i).2

end Scisim
