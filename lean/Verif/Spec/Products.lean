import Mathlib.Algebra.BigOperators.Group.Finset.Basic
import Verif.Model.Products
import Verif.Spec.SparseMatrix
/-! # What the products should be -/

namespace Scisim.Products
variable {K : Type} [Field K]
open Finset

/-- A square matrix of size `n`, and two vectors of this size -/
structure Fits (n : ℕ) (A : Csc K) (b x : List K) : Prop where
  valid : A.Valid
  rows : A.rows = n
  cols : A.cols = n
  b : b.length = n
  x : x.length = n

/-- The matrix is symmetric. -/
def Symmetric (n : ℕ) (A : Csc K) : Prop := ∀ i < n, ∀ j < n, A.entry i j = A.entry j i

/-- Component `i` of `A x` -/
def timesAt (n : ℕ) (A : Csc K) (x : List K) (i : ℕ) : K := ∑ j ∈ range n, A.entry i j * x.getD j 0

/-- `½ xᵀ A x + bᵀ x` -/
def quadratic (n : ℕ) (A : Csc K) (b x : List K) : K := 1 / 2 * ∑ i ∈ range n, x.getD i 0 * timesAt n A x i + ∑ i ∈ range n, b.getD i 0 * x.getD i 0

/-- The vector has these components. -/
def IsVector (n : ℕ) (f : ℕ → K) (y : List K) : Prop := y.length = n ∧ ∀ i < n, y.getD i 0 = f i

end Scisim.Products
