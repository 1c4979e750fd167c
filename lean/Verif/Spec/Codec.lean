import Verif.Model.Codec
/-!
# What "survives a round trip" means

Independent of how any particular type is written: whatever bytes follow in the stream, reading gives the value back and
leaves exactly the bytes that follow.
-/

namespace Scisim

/-- Reading `d` on the bytes `ser x` followed by anything returns `x` and consumes exactly the bytes of `ser x`. -/
def RoundTrip {α : Type} (ser : α → Bytes) (d : Dec α) (x : α) : Prop :=
  ∀ rest : Bytes, d.run (ser x ++ rest) = .ok (x, rest)

/-- A well-formed compressed sparse matrix: `outer` has one entry per column plus one, starts at 0, never decreases, ends
at the number of stored entries; indices fit the storage type (`int`). -/
structure Sparse.Wf (A : Sparse) : Prop where
  rows_lt : A.rows < 9223372036854775808
  cols_lt : A.cols < 9223372036854775808
  nnz_lt : A.values.length < 2147483648
  inner_len : A.inner.length = A.values.length
  outer_len : A.outer.length = A.cols + 1
  outer_head : A.outer.head? = some 0
  outer_mono : A.outer.Pairwise (fun a b => a.toInt ≤ b.toInt)
  outer_last : A.outer.getLast? = some (Int32.ofNat A.values.length)

end Scisim
