import Mathlib.Algebra.Field.Defs
import Mathlib.LinearAlgebra.Matrix.Notation
import Mathlib.LinearAlgebra.CrossProduct
import Verif.Model.SparseMatrix
/-!
# Mass matrices, energy and momentum

Vectors of degrees of freedom are functions of the position; their sizes are given by the number of bodies. Reading outside a matrix is undefined
behaviour.
-/

namespace Scisim

variable {K : Type}

/-! ## Planar systems -/

/-- `createM`, ball2d/Ball2DState.cpp:40-52, and `generateM`, rigidbody2d/RigidBody2DState.cpp:16-29: one entry per column, on the diagonal -/
def createM (n : Nat) (m : Nat → K) : Csc K := compress n ((List.range n).map fun col => [(col, m col)])

/-- `createMinv`, ball2d/Ball2DState.cpp:54-66, and `generateMinv`, rigidbody2d/RigidBody2DState.cpp:31-44 -/
def createMinv [One K] [Div K] (n : Nat) (m : Nat → K) : Csc K := compress n ((List.range n).map fun col => [(col, 1 / m col)])

/-- The product of a sparse matrix and a vector, as Eigen computes it: column by column. `y` is what has been summed so far. -/
def spmv [Add K] [Mul K] (A : Csc K) (v : Nat → K) : List Nat → (Nat → K) → Outcome (Nat → K)
  | [], y => .ok y
  | j :: js, y => (A.column j).bind fun l => spmv A v js (l.foldl (fun y e => Function.update y e.1 (y e.1 + e.2 * v j)) y)

/-- `a.dot( b )` for vectors of size `n` -/
def vdotTo [Zero K] [Add K] [Mul K] (n : Nat) (a b : Nat → K) : K := (List.range n).foldl (fun s i => s + a i * b i) 0

/-- `computeKineticEnergy`, ball2d/Ball2DState.cpp:169-172, rigidbody2d/RigidBody2DSim.cpp:42-45 and rigidbody3d/RigidBody3DSim.cpp:87-90 -/
def kineticEnergyOf [Field K] (A : Csc K) (v : Nat → K) : Outcome K :=
  (spmv A v (List.range A.cols) (fun _ => 0)).bind fun Mv => .ok (1 / 2 * vdotTo A.rows v Mv)

/-- `A.valuePtr()[i]` -/
def Csc.value (A : Csc K) (i : Nat) : Outcome K :=
  match A.vals[i]? with
  | some x => .ok x
  | none => .ub

/-- `MathUtilities::cross` of segments of two vectors -/
def cross2At [Sub K] [Mul K] (q v : Nat → K) (i j : Nat) : K := q i * v (j + 1) - q (i + 1) * v j

/-- `Ball2DSim::computeMomentum`, ball2d/Ball2DSim.cpp:122-132. `Ball2DState::computeMomentum`, ball2d/Ball2DState.cpp:189-201, is the same sum. -/
def ballMomentum [Add K] [Mul K] (A : Csc K) (v : Nat → K) : List Nat → K × K → Outcome (K × K)
  | [], p => .ok p
  | b :: bs, p => (A.value (2 * b)).bind fun m => ballMomentum A v bs (p.1 + m * v (2 * b), p.2 + m * v (2 * b + 1))

/-- `Ball2DSim::computeAngularMomentum`, ball2d/Ball2DSim.cpp:134-144 -/
def ballAngularMomentum [Add K] [Sub K] [Mul K] (A : Csc K) (q v : Nat → K) : List Nat → K → Outcome K
  | [], L => .ok L
  | b :: bs, L => (A.value (2 * b)).bind fun m => ballAngularMomentum A q v bs (L + m * cross2At q v (2 * b) (2 * b))

/-- `RigidBody2DSim::computeMomentum`, rigidbody2d/RigidBody2DSim.cpp:151-160; the mass is `RigidBody2DState::m`, rigidbody2d/RigidBody2DState.cpp:165-171 -/
def rb2Momentum [Add K] [Mul K] (A : Csc K) (v : Nat → K) : List Nat → K × K → Outcome (K × K)
  | [], p => .ok p
  | b :: bs, p => (A.value (3 * b)).bind fun m => rb2Momentum A v bs (p.1 + m * v (3 * b), p.2 + m * v (3 * b + 1))

/-- The first loop of `RigidBody2DSim::computeAngularMomentum`, rigidbody2d/RigidBody2DSim.cpp:167-171 -/
def rb2OrbitalMomentum [Add K] [Sub K] [Mul K] (A : Csc K) (q v : Nat → K) : List Nat → K → Outcome K
  | [], L => .ok L
  | b :: bs, L => (A.value (3 * b)).bind fun m => rb2OrbitalMomentum A q v bs (L + m * cross2At q v (3 * b) (3 * b))

/-- The second loop, rigidbody2d/RigidBody2DSim.cpp:172-176; the inertia is `RigidBody2DState::I`, rigidbody2d/RigidBody2DState.cpp:173-178 -/
def rb2Spin [Add K] [Mul K] (A : Csc K) (v : Nat → K) : List Nat → K → Outcome K
  | [], L => .ok L
  | b :: bs, L => (A.value (3 * b + 2)).bind fun I => rb2Spin A v bs (L + I * v (3 * b + 2))

/-- `RigidBody2DSim::computeAngularMomentum`, rigidbody2d/RigidBody2DSim.cpp:162-177 -/
def rb2AngularMomentum [Zero K] [Add K] [Sub K] [Mul K] (A : Csc K) (n : Nat) (q v : Nat → K) : Outcome K :=
  (rb2OrbitalMomentum A q v (List.range n) 0).bind fun L => rb2Spin A v (List.range n) L

/-! ## Rigid bodies in space -/

/-- `A.insert( row, col ) = x` on columns that are not yet compressed -/
def insertAt (cs : Nat → List (Nat × K)) (row col : Nat) (x : K) : Outcome (Nat → List (Nat × K)) :=
  (insertEntry row x (cs col)).bind fun l => .ok (Function.update cs col l)

/-- Three insertions on the diagonal from position `base` on: the inner loops of rigidbody3d/RigidBody3DState.cpp:82-88, 94-100 -/
def insertDiagonal3 (base : Nat) (x : Fin 3 → K) (cs : Nat → List (Nat × K)) : Outcome (Nat → List (Nat × K)) :=
  (insertAt cs base base (x 0)).bind fun cs => (insertAt cs (base + 1) (base + 1) (x 1)).bind fun cs => insertAt cs (base + 2) (base + 2) (x 2)

/-- A loop over bodies -/
def overBodies {σ : Type} (f : Nat → σ → Outcome σ) : List Nat → σ → Outcome σ
  | [], s => .ok s
  | b :: bs, s => (f b s).bind fun s => overBodies f bs s

/-- `formBodySpaceMassMatrix`, rigidbody3d/RigidBody3DState.cpp:70-103 -/
def formBodySpaceMassMatrix (n : Nat) (M : Nat → K) (I0 : Nat → Fin 3 → K) : Outcome (Csc K) :=
  (overBodies (fun b => insertDiagonal3 (3 * b) fun _ => M b) (List.range n) (fun _ => [])).bind fun cs =>
    (overBodies (fun b => insertDiagonal3 (3 * n + 3 * b) (I0 b)) (List.range n) cs).bind fun cs => .ok (compress (6 * n) ((List.range (6 * n)).map cs))

/-- `formBodySpaceInverseMassMatrix`, rigidbody3d/RigidBody3DState.cpp:105-138 -/
def formBodySpaceInverseMassMatrix [One K] [Div K] (n : Nat) (M : Nat → K) (I0 : Nat → Fin 3 → K) : Outcome (Csc K) :=
  (overBodies (fun b => insertDiagonal3 (3 * b) fun _ => 1 / M b) (List.range n) (fun _ => [])).bind fun cs =>
    (overBodies (fun b => insertDiagonal3 (3 * n + 3 * b) fun d => 1 / I0 b d) (List.range n) cs).bind fun cs =>
      .ok (compress (6 * n) ((List.range (6 * n)).map cs))

/-- One pass of the middle loop of rigidbody3d/RigidBody3DState.cpp:178-186: row `r` of the matrix is inserted into column `base + r` -/
def insertRow3 (base r : Nat) (x : Fin 3 → K) (cs : Nat → List (Nat × K)) : Outcome (Nat → List (Nat × K)) :=
  (insertAt cs base (base + r) (x 0)).bind fun cs => (insertAt cs (base + 1) (base + r) (x 1)).bind fun cs => insertAt cs (base + 2) (base + r) (x 2)

/-- The loop of rigidbody3d/RigidBody3DState.cpp:178-186 -/
def insertBlock3 (base : Nat) (I : Matrix (Fin 3) (Fin 3) K) (cs : Nat → List (Nat × K)) : Outcome (Nat → List (Nat × K)) :=
  (insertRow3 base 0 (I 0) cs).bind fun cs => (insertRow3 base 1 (I 1) cs).bind fun cs => insertRow3 base 2 (I 2) cs

/-- `formWorldSpaceMassMatrix`, rigidbody3d/RigidBody3DState.cpp:140-191. Orientations are matrices; their storage by rows is not modelled. -/
def formWorldSpaceMassMatrix [Field K] (n : Nat) (M : Nat → K) (I0 : Nat → Fin 3 → K) (R : Nat → Matrix (Fin 3) (Fin 3) K) : Outcome (Csc K) :=
  (overBodies (fun b => insertDiagonal3 (3 * b) fun _ => M b) (List.range n) (fun _ => [])).bind fun cs =>
    (overBodies (fun b => insertBlock3 (3 * n + 3 * b) (R b * Matrix.diagonal (I0 b) * (R b).transpose)) (List.range n) cs).bind fun cs =>
      .ok (compress (6 * n) ((List.range (6 * n)).map cs))

/-- `formWorldSpaceInverseMassMatrix`, rigidbody3d/RigidBody3DState.cpp:193-244 -/
def formWorldSpaceInverseMassMatrix [Field K] (n : Nat) (M : Nat → K) (I0 : Nat → Fin 3 → K) (R : Nat → Matrix (Fin 3) (Fin 3) K) : Outcome (Csc K) :=
  (overBodies (fun b => insertDiagonal3 (3 * b) fun _ => 1 / M b) (List.range n) (fun _ => [])).bind fun cs =>
    (overBodies (fun b => insertBlock3 (3 * n + 3 * b) (R b * Matrix.diagonal (fun d => (I0 b d)⁻¹) * (R b).transpose)) (List.range n) cs).bind fun cs =>
      .ok (compress (6 * n) ((List.range (6 * n)).map cs))

/-- The matrices of `RigidBody3DState` -/
structure Rb3Matrices (K : Type) where
  nbodies : Nat
  M0 : Csc K
  Minv0 : Csc K
  M : Csc K
  Minv : Csc K

/-- The part of `RigidBody3DState::setState` that builds the matrices, rigidbody3d/RigidBody3DState.cpp:286-294, on a new state -/
def buildMatrices [Field K] (n : Nat) (M : Nat → K) (I0 : Nat → Fin 3 → K) (R : Nat → Matrix (Fin 3) (Fin 3) K) : Outcome (Rb3Matrices K) :=
  (formBodySpaceMassMatrix n M I0).bind fun M0 =>
    (formBodySpaceInverseMassMatrix n M I0).bind fun Minv0 =>
      (formWorldSpaceMassMatrix n M I0 R).bind fun Mw =>
        (formWorldSpaceInverseMassMatrix n M I0 R).bind fun Minvw => .ok ⟨n, M0, Minv0, Mw, Minvw⟩

/-- Three entries of `valuePtr()` from position `i` on, as a vector: `Eigen::Map<const Vector3s>` -/
def Csc.map3 (A : Csc K) (i : Nat) : Outcome (Fin 3 → K) :=
  (A.value i).bind fun a => (A.value (i + 1)).bind fun b => (A.value (i + 2)).bind fun c => .ok ![a, b, c]

/-- Nine entries of `valuePtr()` from position `i` on, as a matrix stored by rows: `Eigen::Map<const Matrix33sr>` -/
def Csc.map33r (A : Csc K) (i : Nat) : Outcome (Matrix (Fin 3) (Fin 3) K) :=
  (A.map3 i).bind fun a => (A.map3 (i + 3)).bind fun b => (A.map3 (i + 6)).bind fun c => .ok (Matrix.of ![a, b, c])

/-- `A.valuePtr()[i] = x` -/
def Csc.write (A : Csc K) (i : Nat) (x : K) : Outcome (Csc K) := if i < A.vals.length then .ok { A with vals := A.vals.set i x } else .ub

/-- Three writes from position `i` on -/
def Csc.write3 (A : Csc K) (i : Nat) (x : Fin 3 → K) : Outcome (Csc K) :=
  (A.write i (x 0)).bind fun A => (A.write (i + 1) (x 1)).bind fun A => A.write (i + 2) (x 2)

/-- Assignment to `Eigen::Map<Matrix33sc>`, nine entries from position `i` on, stored by columns -/
def Csc.write33c (A : Csc K) (i : Nat) (X : Matrix (Fin 3) (Fin 3) K) : Outcome (Csc K) :=
  (A.write3 i fun r => X r 0).bind fun A => (A.write3 (i + 3) fun r => X r 1).bind fun A => A.write3 (i + 6) fun r => X r 2

/-- The body of the loop of `RigidBody3DState::updateMandMinv`, rigidbody3d/RigidBody3DState.cpp:437-459 -/
def updateBody [Field K] (R : Nat → Matrix (Fin 3) (Fin 3) K) (b : Nat) (s : Rb3Matrices K) : Outcome (Rb3Matrices K) :=
  (s.M0.map3 (3 * s.nbodies + 3 * b)).bind fun I0 =>
    (s.M.write33c (3 * s.nbodies + 9 * b) (R b * Matrix.diagonal I0 * (R b).transpose)).bind fun M =>
      (s.Minv0.map3 (3 * s.nbodies + 3 * b)).bind fun Iinv0 =>
        (s.Minv.write33c (3 * s.nbodies + 9 * b) (R b * Matrix.diagonal Iinv0 * (R b).transpose)).bind fun Minv => .ok { s with M := M, Minv := Minv }

/-- `RigidBody3DState::updateMandMinv`, rigidbody3d/RigidBody3DState.cpp:428-462; `R` are the current orientations -/
def updateMandMinv [Field K] (R : Nat → Matrix (Fin 3) (Fin 3) K) (s : Rb3Matrices K) : Outcome (Rb3Matrices K) :=
  overBodies (updateBody R) (List.range s.nbodies) s

/-- Three entries of a vector from position `i` on -/
def segment3 (v : Nat → K) (i : Nat) : Fin 3 → K := fun d => v (i + d)

/-- `RigidBody3DSim::computeMomentum`, rigidbody3d/RigidBody3DSim.cpp:221-228, and `computeTotalMomentum`, 107-117; the mass is `getTotalMass`,
rigidbody3d/RigidBody3DState.cpp:413-419 -/
def rb3Momentum [Field K] (A : Csc K) (v : Nat → K) (n : Nat) : Outcome (Fin 3 → K) :=
  overBodies (fun b p => (A.value (3 * b)).bind fun m => .ok (p + m • segment3 v (3 * b))) (List.range n) 0

/-- `RigidBody3DSim::computeAngularMomentum`, rigidbody3d/RigidBody3DSim.cpp:230-243, and `computeTotalAngularMomentum`, 119-136; the inertia is `getInertia`,
rigidbody3d/RigidBody3DState.cpp:421-426 -/
def rb3AngularMomentum [Field K] (A : Csc K) (q v : Nat → K) (n : Nat) : Outcome (Fin 3 → K) :=
  (overBodies (fun b L => (A.value (3 * b)).bind fun m => .ok (L + m • crossProduct (segment3 q (3 * b)) (segment3 v (3 * b)))) (List.range n) 0).bind fun L =>
    overBodies (fun b L => (A.map33r (3 * n + 9 * b)).bind fun I => .ok (L + I.mulVec (segment3 v (3 * n + 3 * b)))) (List.range n) L

end Scisim
