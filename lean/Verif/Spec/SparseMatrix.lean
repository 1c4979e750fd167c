import Mathlib.Data.List.Basic
import Mathlib.Data.Real.Basic
import Verif.Model.SparseMatrix
/-!
# The matrix that a sparse matrix stands for
-/

namespace Scisim

/-- Entry (i, j): the value stored for row `i` in column `j`, zero if none is stored -/
def Csc.entry {S : Type} [Zero S] (A : Csc S) (i j : Nat) : S :=
  match A.column j with
  | .ok l => ((l.find? fun e => e.1 = i).map (·.2)).getD 0
  | _ => 0

/-- Compressed column storage is well formed: the columns follow one another without gaps, and the rows of each column increase and are in range. -/
structure Csc.Valid {S : Type} (A : Csc S) : Prop where
  outer_length : A.outer.length = A.cols + 1
  outer_zero : A.outer[0]? = some 0
  outer_sorted : A.outer.Pairwise (· ≤ ·)
  outer_last : A.outer[A.cols]? = some A.inner.length
  vals_length : A.vals.length = A.inner.length
  column : ∀ j < A.cols, ∃ l, A.column j = .ok l ∧ (l.map (·.1)).Pairwise (· < ·) ∧ ∀ e ∈ l, e.1 < A.rows

end Scisim
