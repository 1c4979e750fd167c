import Mathlib.Algebra.Field.Defs
import Verif.Model.SparseMatrix
/-!
# Products with sparse matrices

scisim/Math/QPSolvers/SparseMatrixVectorOperators.cpp: the objective, gradient and product that `LCPOperatorAPGD` gives to its solver, with Eigen and with MKL, on the arrays of compressed matrices. Scalars are
the elements of a field; the assertions are not compiled into release builds. Reading or writing outside of an array is undefined behaviour.
-/

namespace Scisim.Products
variable {K : Type} [Field K]

/-- The sum over the entries of one outer index of `value * x[ inner ]`: the inner loop of Eigen's product of a matrix stored by rows, of which `A.transpose()` is one, with a vector
(scisim/Math/QPSolvers/SparseMatrixVectorOperators.cpp:18, 31 and 42), and of `mkl_dcsrmv` (line 64). `c` is the factor in `( c * A.transpose() ) * x`. -/
def dotEntries (c : K) (x : List K) : List (ℕ × K) → K → Outcome K
  | [], acc => .ok acc
  | (r, v) :: es, acc => match x[r]? with
    | some xr => dotEntries c x es (acc + c * v * xr)
    | none => .ub

/-- `( c * A.transpose() ) * x`, scisim/Math/QPSolvers/SparseMatrixVectorOperators.cpp:18, 31 and 42, for the rows `js` of the transposed matrix -/
def transposeTimes (c : K) (A : Csc K) (x : List K) : List ℕ → Outcome (List K)
  | [] => .ok []
  | j :: js => (A.column j).bind fun l => (dotEntries c x l 0).bind fun s => (transposeTimes c A x js).bind fun ss => .ok (s :: ss)

/-- Eigen `+` of vectors: different sizes are undefined behaviour. -/
def addVectors (x y : List K) : Outcome (List K) := if x.length = y.length then .ok (List.zipWith (· + ·) x y) else .ub

/-- Eigen `dot`: different sizes are undefined behaviour. -/
def dot (x y : List K) : Outcome K := if x.length = y.length then .ok (List.zipWith (· * ·) x y).sum else .ub

/-- `ObjectiveEigenColumnMajor`, scisim/Math/QPSolvers/SparseMatrixVectorOperators.cpp:11-19 -/
def objectiveEigen (A : Csc K) (b x : List K) : Outcome K :=
  (transposeTimes (1 / 2) A x (List.range A.cols)).bind fun y => (addVectors y b).bind fun s => dot x s

/-- `GradientEigenColumnMajor`, scisim/Math/QPSolvers/SparseMatrixVectorOperators.cpp:21-32 -/
def gradientEigen (A : Csc K) (b x : List K) : Outcome (List K) :=
  (transposeTimes 1 A x (List.range A.cols)).bind fun y => addVectors y b

/-- `MultiplyEigenColumnMajor`, scisim/Math/QPSolvers/SparseMatrixVectorOperators.cpp:34-43 -/
def multiplyEigen (A : Csc K) (x : List K) : Outcome (List K) := transposeTimes 1 A x (List.range A.cols)

/-- `mkl_dcsrmv` without transposition for a general matrix, as its manual describes it: `y = alpha * A * x + beta * y`, where the arrays are taken as those of a matrix stored by rows. Called in
scisim/Math/QPSolvers/SparseMatrixVectorOperators.cpp:64. `js`: the rows that are left -/
def csrmv (alpha : K) (A : Csc K) (x : List K) (beta : K) (y : List K) : List ℕ → Outcome (List K)
  | [] => .ok []
  | j :: js => (A.column j).bind fun l => (dotEntries 1 x l 0).bind fun s => match y[j]? with
    | some yj => (csrmv alpha A x beta y js).bind fun ss => .ok ((alpha * s + beta * yj) :: ss)
    | none => .ub

/-- The inner loop of `mkl_dcscmv`: `y[ inner ] += alpha * value * x[ j ]` -/
def scatter (c : K) : List (ℕ × K) → List K → Outcome (List K)
  | [], y => .ok y
  | (r, v) :: es, y => match y[r]? with
    | some yr => scatter c es (y.set r (yr + c * v))
    | none => .ub

/-- The loop over columns of `mkl_dcscmv` -/
def scatterColumns (alpha : K) (A : Csc K) (x : List K) : List ℕ → List K → Outcome (List K)
  | [], y => .ok y
  | j :: js, y => (A.column j).bind fun l => match x[j]? with
    | some xj => (scatter (alpha * xj) l y).bind fun y' => scatterColumns alpha A x js y'
    | none => .ub

/-- `mkl_dcscmv` without transposition for a general matrix, as its manual describes it: `y = alpha * A * x + beta * y`, for a matrix stored by columns. Called in
scisim/Math/QPSolvers/SparseMatrixVectorOperators.cpp:86 and 107 -/
def cscmv (alpha : K) (A : Csc K) (x : List K) (beta : K) (y : List K) : Outcome (List K) :=
  scatterColumns alpha A x (List.range A.cols) (y.map (beta * ·))

/-- `ObjectiveMKLColumnMajor`, scisim/Math/QPSolvers/SparseMatrixVectorOperators.cpp:46-66 -/
def objectiveMKL (A : Csc K) (b x : List K) : Outcome K := (csrmv (1 / 2) A x 1 b (List.range A.rows)).bind fun y => dot x y

/-- `GradientMKLColumnMajor`, scisim/Math/QPSolvers/SparseMatrixVectorOperators.cpp:68-87 -/
def gradientMKL (A : Csc K) (b x : List K) : Outcome (List K) := cscmv 1 A x 1 b

/-- `MultiplyMKLColumnMajor`, scisim/Math/QPSolvers/SparseMatrixVectorOperators.cpp:89-108; `y` has the size of `x` -/
def multiplyMKL (A : Csc K) (x : List K) : Outcome (List K) := cscmv 1 A x 0 (x.map fun _ => 0)

end Scisim.Products
