import Verif.Model.Float
import Mathlib.Data.List.OfFn
/-!
# The accelerated projected gradient solver

scisim/Math/QPSolvers/ProjectionSolvers.{h,cpp}, with the operators that `LCPOperatorAPGD` plugs in. Written for any scalar type `S`; the
properties use `S = XR`, doubles without rounding. Sparse matrices are dense here: products with entries that are not stored are the one
difference (`0 * ∞` for an entry that is not stored), and the concrete matrices of the counterexamples have no zero entries.
-/

namespace Scisim

section
variable {S : Type} [Zero S] [One S] [Add S] [Sub S] [Mul S] [Div S] [LT S] [LE S] [FloatOps S] {n : Nat}
open FloatOps

/-- Eigen `dot` -/
def vdot (x y : Fin n → S) : S := (List.ofFn fun i => x i * y i).sum

/-- Eigen `norm` -/
def vnorm (x : Fin n → S) : S := sqrt (vdot x x)

/-- `A.transpose() * x`, SparseMatrixVectorOperators.cpp:34-43 (`MultiplyEigenColumnMajor`) -/
def mulT (A : Fin n → Fin n → S) (x : Fin n → S) : Fin n → S := fun i => (List.ofFn fun j => A j i * x j).sum

/-- `x.dot( 0.5 * A.transpose() * x + b )`, SparseMatrixVectorOperators.cpp:11-19 (`ObjectiveEigenColumnMajor`) -/
def objective (A : Fin n → Fin n → S) (b x : Fin n → S) : S :=
  vdot x (fun i => mulT (fun j k => lit (1 / 2) * A j k) x i + b i)

/-- `A.transpose() * x + b`, SparseMatrixVectorOperators.cpp:21-32 (`GradientEigenColumnMajor`) -/
def qpGrad (A : Fin n → Fin n → S) (b x : Fin n → S) : Fin n → S := fun i => mulT A x i + b i

open Classical in
/-- `NonNegativeProjection::operator()`, scisim/ConstrainedMaps/ImpactMaps/NonNegativeProjection.cpp:3-12 -/
noncomputable def projectNonneg (x : Fin n → S) : Fin n → S := fun i => if x i < 0 then 0 else x i

open Classical in
/-- `std::min( a, b )` -/
noncomputable def stdMin (a b : S) : S := if b < a then b else a

open Classical in
/-- `std::max( a, b )` -/
noncomputable def stdMax (a b : S) : S := if a < b then b else a

/-- `minMapInfinityNorm`, scisim/ConstrainedMaps/ImpactMaps/MinMapImpact.cpp:3-19 -/
noncomputable def minMapImpact (x y : Fin n → S) : S :=
  (List.ofFn fun i => FloatOps.abs (stdMin (x i) (y i))).foldl stdMax 0

/-- `computeNewTheta`, scisim/Math/QPSolvers/ProjectionSolvers.cpp:3-6 (`-theta0 * theta0` written as a subtraction from zero) -/
def computeNewTheta (theta0 : S) : S := lit (1 / 2) * ((0 - theta0 * theta0) + theta0 * sqrt (theta0 * theta0 + lit 4))

/-- `computeNewBeta`, scisim/Math/QPSolvers/ProjectionSolvers.cpp:8-12 -/
def computeNewBeta (theta0 theta1 : S) : S := theta0 * (1 - theta0) / (theta0 * theta0 + theta1)

/-- `y0 - tk * g`, projected; ProjectionSolvers.h:89-90 and 105-106 -/
noncomputable def gradientStep (y0 g : Fin n → S) (tk : S) : Fin n → S := projectNonneg fun i => y0 i - tk * g i

open Classical in
/-- The step size search, ProjectionSolvers.h:91-107. `none` means that it has not ended after `fuel` rounds. -/
noncomputable def backtrack (A : Fin n → Fin n → S) (b y0 g : Fin n → S) : Nat → S → S → (Fin n → S) → Option (S × S × (Fin n → S))
  | 0, _, _, _ => none
  | fuel + 1, Lk, tk, x1 =>
    if objective A b x1 - objective A b y0 ≤
        vdot g (fun i => x1 i - y0 i) + lit (1 / 2) * Lk * vdot (fun i => x1 i - y0 i) (fun i => x1 i - y0 i)
    then some (Lk, tk, x1)
    else backtrack A b y0 g fuel (lit 2 * Lk) (1 / (lit 2 * Lk)) (gradientStep y0 g (1 / (lit 2 * Lk)))

/-- The variables carried from one iteration to the next, ProjectionSolvers.h:46-61. -/
structure ApgdState (S : Type) (n : Nat) where
  x0 : Fin n → S
  y0 : Fin n → S
  theta0 : S
  Lk : S
  tk : S

/-- Before the loop, ProjectionSolvers.h:45-61 -/
noncomputable def apgdInit (A : Fin n → Fin n → S) (x : Fin n → S) : ApgdState S n :=
  let x0 := projectNonneg x
  let g : Fin n → S := fun i => x0 i - 1
  let Lk := vnorm (mulT A g) / vnorm g
  ⟨x0, x0, 1, Lk, 1 / Lk⟩

open Classical in
/-- The part of an iteration after the termination test, ProjectionSolvers.h:86-125 -/
noncomputable def apgdStep (A : Fin n → Fin n → S) (b : Fin n → S) (fuel : Nat) (s : ApgdState S n) : Option (ApgdState S n) :=
  let g := qpGrad A b s.y0
  (backtrack A b s.y0 g fuel s.Lk s.tk (gradientStep s.y0 g s.tk)).map fun r =>
    let x1 := r.2.2
    let theta1 := computeNewTheta s.theta0
    let beta1 := computeNewBeta s.theta0 theta1
    let d : Fin n → S := fun i => x1 i - s.x0 i
    let restart := 0 < vdot g d
    ⟨x1, if restart then x1 else fun i => x1 i + beta1 * d i, if restart then 1 else theta1, lit (9 / 10) * r.1, 1 / (lit (9 / 10) * r.1)⟩

/-- `term( x0, x1 )` with the gradient in `x1`, ProjectionSolvers.h:72-74 -/
noncomputable def apgdResidual (A : Fin n → Fin n → S) (b : Fin n → S) (x : Fin n → S) : S := minMapImpact x (qpGrad A b x)

open Classical in
/-- The best iterate so far, ProjectionSolvers.h:63-64 and 74-78; `none` while `best_residual` is infinite and `best_solution` empty -/
noncomputable def apgdRecord (A : Fin n → Fin n → S) (b x : Fin n → S) : Option (S × (Fin n → S)) → Option (S × (Fin n → S))
  | none => if belowInfinity (apgdResidual A b x) then some (apgdResidual A b x, x) else none
  | some (r, y) => if apgdResidual A b x < r then some (apgdResidual A b x, x) else some (r, y)

/-- `ProjectionSolveResults` and the solution, ProjectionSolvers.h:16-21. `best` is `none` for `achieved_tolerance` infinite and an empty
solution vector. -/
structure ApgdResult (S : Type) (n : Nat) where
  success : Bool
  best : Option (S × (Fin n → S))
  numIterations : Nat

/-- `best_residual <= tol` -/
def bestWithin (tol : S) (best : Option (S × (Fin n → S))) : Prop :=
  match best with
  | none => False
  | some (r, _) => r ≤ tol

open Classical in
/-- The loop, ProjectionSolvers.h:65-130; `rem` iterations are left, `iteration` is the counter. `none`: a step size search has not ended
after `fuel` rounds. -/
noncomputable def apgdLoop (A : Fin n → Fin n → S) (b : Fin n → S) (tol : S) (fuel : Nat) :
    Nat → Nat → ApgdState S n → Option (S × (Fin n → S)) → Option (ApgdResult S n)
  | 0, iteration, _, best => some ⟨false, best, iteration⟩
  | rem + 1, iteration, s, best =>
    if bestWithin tol (apgdRecord A b s.x0 best) then some ⟨true, apgdRecord A b s.x0 best, iteration⟩
    else (apgdStep A b fuel s).bind fun s' => apgdLoop A b tol fuel rem (iteration + 1) s' (apgdRecord A b s.x0 best)

/-- `ProjectionSolvers::APGD` as called by `LCPOperatorAPGD::flow`, ProjectionSolvers.h:30-131, LCPOperatorAPGD.cpp:26-44. `none` means that
some step size search has not ended after `fuel` rounds; the program goes on for ever exactly when the result is `none` for every `fuel`. -/
noncomputable def apgd (A : Fin n → Fin n → S) (b : Fin n → S) (tol : S) (maxIters : Nat) (x : Fin n → S) (fuel : Nat) : Option (ApgdResult S n) :=
  apgdLoop A b tol fuel maxIters 0 (apgdInit A x) none

end

end Scisim
