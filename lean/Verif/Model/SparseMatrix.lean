import Verif.Model.Float
import Verif.Model.Outcome
import Verif.Model.Rotations
/-!
# Sparse matrices and checks on matrices and frames

scisim/Math/MathUtilities.cpp. Sparse matrices are stored by columns, as in Eigen: the entries of column `j` are at the positions
`outer[j], …, outer[j+1] - 1` of the arrays `inner` (rows) and `vals`.
-/

namespace Scisim

/-- `SparseMatrixsc` in compressed form (`outerIndexPtr()`, `innerIndexPtr()`, `valuePtr()`) -/
structure Csc (S : Type) where
  rows : Nat
  cols : Nat
  outer : List Nat
  inner : List Nat
  vals : List S

variable {S : Type}

/-- `SparseMatrixsc::InnerIterator it( A, j )`, e.g. scisim/Math/MathUtilities.cpp:51: the rows and values of column `j`. Reading outside the arrays
is undefined behaviour. -/
def Csc.column (A : Csc S) (j : Nat) : Outcome (List (Nat × S)) :=
  match A.outer[j]?, A.outer[j + 1]? with
  | some lo, some hi => if hi ≤ A.inner.length ∧ hi ≤ A.vals.length then .ok (((A.inner.zip A.vals).take hi).drop lo) else .ub
  | _, _ => .ub

/-- `A1.insert( row, col ) = value`, scisim/Math/MathUtilities.cpp:127, on the entries of column `col`: keeps them sorted by row. A row that is
already there is undefined behaviour. -/
def insertEntry (row : Nat) (v : S) : List (Nat × S) → Outcome (List (Nat × S))
  | [] => .ok [(row, v)]
  | (r, w) :: rest =>
    if row < r then .ok ((row, v) :: (r, w) :: rest)
    else if row = r then .ub
    else (insertEntry row v rest).bind fun l => .ok ((r, w) :: l)

/-- The inner loop of `extractColumns`, scisim/Math/MathUtilities.cpp:125-128. A row outside the matrix is undefined behaviour. -/
def copyEntries (rows : Nat) : List (Nat × S) → List (Nat × S) → Outcome (List (Nat × S))
  | [], acc => .ok acc
  | (r, v) :: rest, acc => if r < rows then (insertEntry r v acc).bind fun acc' => copyEntries rows rest acc' else .ub

/-- The outer loop of `extractColumns`, scisim/Math/MathUtilities.cpp:123-129: the columns of `A1` -/
def copyColumnList (A : Csc S) : List Nat → Outcome (List (List (Nat × S)))
  | [] => .ok []
  | c :: cs => (A.column c).bind fun l => (copyEntries A.rows l []).bind fun l' => (copyColumnList A cs).bind fun ls => .ok (l' :: ls)

/-- The positions at which the columns start -/
def columnStarts (base : Nat) : List (List (Nat × S)) → List Nat
  | [] => [base]
  | c :: cs => base :: columnStarts (base + c.length) cs

/-- `makeCompressed()`, scisim/Math/MathUtilities.cpp:131: the columns back to back -/
def compress (rows : Nat) (cs : List (List (Nat × S))) : Csc S :=
  ⟨rows, cs.length, columnStarts 0 cs, cs.flatten.map (·.1), cs.flatten.map (·.2)⟩

/-- `MathUtilities::extractColumns`, scisim/Math/MathUtilities.cpp:101-139. Reserving space has no observable effect and is left out; the assertions
are not compiled into release builds. -/
def extractColumns (A : Csc S) (cols : List Nat) : Outcome (Csc S) :=
  (copyColumnList A cols).bind fun cs => .ok (compress A.rows cs)

/-! ## Checks -/

/-- All stored entries in the order of the loops of scisim/Math/MathUtilities.cpp:49-51: row, column, value -/
def Csc.storedFrom (A : Csc S) : List Nat → Outcome (List (Nat × Nat × S))
  | [] => .ok []
  | j :: js => (A.column j).bind fun l => (A.storedFrom js).bind fun rest => .ok (l.map (fun e => (e.1, j, e.2)) ++ rest)

/-- All stored entries -/
def Csc.stored (A : Csc S) : Outcome (List (Nat × Nat × S)) := A.storedFrom (List.range A.cols)

open Classical in
/-- `MathUtilities::isIdentity`, scisim/Math/MathUtilities.cpp:43-70 -/
noncomputable def isIdentity [One S] [Sub S] [LT S] [FloatOps S] (A : Csc S) (tol : S) : Outcome Bool :=
  if A.rows = A.cols then
    A.stored.bind fun es => .ok (es.all fun e => if e.1 = e.2.1 then decide (¬ FloatOps.abs (e.2.2 - 1) > tol) else decide (¬ FloatOps.abs e.2.2 > tol))
  else .ok false

/-- Row `i` of a list of columns: the column numbers and values. This is column `i` of the transposed matrix. -/
def rowOf (i : Nat) : Nat → List (List (Nat × S)) → List (Nat × S)
  | _, [] => []
  | j, c :: cs => (c.filter fun e => e.1 = i).map (fun e => (j, e.2)) ++ rowOf i (j + 1) cs

/-- The entries of one column of a difference of two sparse matrices: entries that are stored in either, in the order of the rows (Eigen's iterator over
`A - B`) -/
def mergeSub [Zero S] [Sub S] : List (Nat × S) → List (Nat × S) → List (Nat × S)
  | [], [] => []
  | [], (r, w) :: bs => (r, 0 - w) :: mergeSub [] bs
  | (r, v) :: as, [] => (r, v - 0) :: mergeSub as []
  | (r, v) :: as, (r', w) :: bs =>
    if r < r' then (r, v - 0) :: mergeSub as ((r', w) :: bs)
    else if r' < r then (r', 0 - w) :: mergeSub ((r, v) :: as) bs
    else (r, v - w) :: mergeSub as bs
termination_by as bs => as.length + bs.length

/-- All columns -/
def Csc.columnsFrom (A : Csc S) : List Nat → Outcome (List (List (Nat × S)))
  | [] => .ok []
  | j :: js => (A.column j).bind fun l => (A.columnsFrom js).bind fun rest => .ok (l :: rest)

open Classical in
/-- `MathUtilities::isSymmetric`, scisim/Math/MathUtilities.cpp:72-86. Subtracting matrices of different shapes is undefined behaviour. -/
noncomputable def isSymmetric [Zero S] [Sub S] [LT S] [FloatOps S] (A : Csc S) (tol : S) : Outcome Bool :=
  if A.rows = A.cols then
    (A.columnsFrom (List.range A.cols)).bind fun cs =>
      .ok ((List.range A.cols).all fun j => (mergeSub (cs.getD j []) (rowOf j 0 cs)).all fun e => decide (¬ FloatOps.abs e.2 > tol))
  else .ub

section Frames

variable [Zero S] [One S] [Add S] [Sub S] [Mul S] [LT S] [LE S] [FloatOps S]

/-- `a.dot( b )` -/
def sdot3 (a b : Fin 3 → S) : S := a 0 * b 0 + a 1 * b 1 + a 2 * b 2

/-- `a.dot( b )` in the plane -/
def sdot2 (a b : Fin 2 → S) : S := a 0 * b 0 + a 1 * b 1

/-- `cross( a, b )`, scisim/Math/MathUtilities.h -/
def scross2 (a b : Fin 2 → S) : S := a 0 * b 1 - a 1 * b 0

open Classical in
/-- `MathUtilities::isRightHandedOrthoNormal( a, b, tol )`, scisim/Math/MathUtilities.cpp:10-21 -/
noncomputable def isFrame2 (a b : Fin 2 → S) (tol : S) : Bool :=
  if FloatOps.abs (FloatOps.sqrt (sdot2 a a) - 1) > tol then false
  else if FloatOps.abs (FloatOps.sqrt (sdot2 b b) - 1) > tol then false
  else if FloatOps.abs (sdot2 a b) > tol then false
  else if scross2 a b ≤ 0 then false
  else true

/-- `a.cross( b )` -/
def scross3 (a b : Fin 3 → S) : Fin 3 → S := ![a 1 * b 2 - a 2 * b 1, a 2 * b 0 - a 0 * b 2, a 0 * b 1 - a 1 * b 0]

open Classical in
/-- The larger of two scalars as computed by Eigen's `maxCoeff` (which leaves open what happens with NaN; here a NaN on the left stays) -/
noncomputable def smax (a b : S) : S := if a < b then b else a

/-- `lpNorm<Eigen::Infinity>()` -/
noncomputable def supNorm3 (a : Fin 3 → S) : S := smax (smax (FloatOps.abs (a 0)) (FloatOps.abs (a 1))) (FloatOps.abs (a 2))

open Classical in
/-- `MathUtilities::isRightHandedOrthoNormal( a, b, c, tol )`, scisim/Math/MathUtilities.cpp:23-36 -/
noncomputable def isFrame3 (a b c : Fin 3 → S) (tol : S) : Bool :=
  if FloatOps.abs (FloatOps.sqrt (sdot3 a a) - 1) > tol then false
  else if FloatOps.abs (FloatOps.sqrt (sdot3 b b) - 1) > tol then false
  else if FloatOps.abs (FloatOps.sqrt (sdot3 c c) - 1) > tol then false
  else if FloatOps.abs (sdot3 a b) > tol then false
  else if FloatOps.abs (sdot3 a c) > tol then false
  else if FloatOps.abs (sdot3 b c) > tol then false
  else if supNorm3 (fun i => scross3 a b i - c i) > tol then false
  else true

end Frames

end Scisim
