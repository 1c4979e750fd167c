import Mathlib.Analysis.Calculus.Deriv.Basic
import Mathlib.Analysis.Convex.Function
import Mathlib.Analysis.Real.Sqrt
import Verif.Model.ExternalSolvers
import Verif.Spec.Impact
import Verif.Spec.MassMatrix
/-!
# Optimization problems, and what it means to pose one to a library
-/

namespace Scisim

open Matrix

variable {n m c : Nat}

/-- A vector as the functions of the program take it -/
def arr (x : Fin n → ℝ) : Nat → ℝ := fun i => if h : i < n then x ⟨i, h⟩ else 0

/-- The first `n` numbers of a vector of the program -/
def vec (n : Nat) (x : Nat → ℝ) : Fin n → ℝ := fun i => x i

/-- `d` is the partial derivative of `f` at `x` in the direction of variable `i`. -/
def IsPartial (f : (Fin n → ℝ) → ℝ) (x : Fin n → ℝ) (i : Fin n) (d : ℝ) : Prop := HasDerivAt (fun t => f (Function.update x i t)) d (x i)

/-- Entry `(i, j)` of the matrix given by rows, columns and values: Ipopt adds up the values given for the same position. -/
def tripletEntry (rows cols : List Nat) (vals : List ℝ) (i j : Nat) : ℝ := ((((rows.zip cols).zip vals).filter fun t => t.1 = (i, j)).map (·.2)).sum

/-- The functions that Ipopt calls describe the problem with objective `f` and constraint functions `g`: the value, the gradient, the constraints, their
Jacobian, and the lower half of the Hessian of `σ f + ∑ λ g` (Ipopt's convention) are what they should be. All arrays have the announced sizes,
and all indices are in range. The contents of the arrays before the calls do not matter. -/
structure Poses (P : Nlp ℝ) (f : (Fin n → ℝ) → ℝ) (g : Fin m → (Fin n → ℝ) → ℝ) (nzJac nzHess : Nat) : Prop where
  info : P.info = .ok ⟨n, m, nzJac, nzHess⟩
  value : ∀ x, P.evalF (arr x) = .ok (f x)
  gradient : ∀ x, ∃ d, P.evalGradF (arr x) = .ok (List.ofFn d) ∧ ∀ i, IsPartial f x i (d i)
  constraints : 0 < m → ∀ x, P.evalG (arr x) = .ok (List.ofFn fun i => g i x)
  jacobian : ∃ rows cols : List Nat, rows.length = nzJac ∧ cols.length = nzJac ∧ (∀ i ∈ rows, i < m) ∧ (∀ j ∈ cols, j < n) ∧
    (∀ r c : List Nat, r.length = nzJac → c.length = nzJac → P.jacPattern r c = .ok (rows, cols)) ∧
    ∀ x, ∀ buf : List ℝ, buf.length = nzJac → ∃ vals, P.jacValues (arr x) buf = .ok vals ∧ vals.length = nzJac ∧
      ∀ i j, IsPartial (g i) x j (tripletEntry rows cols vals i j)
  hessian : ∃ rows cols : List Nat, rows.length = nzHess ∧ cols.length = nzHess ∧ (∀ p ∈ rows.zip cols, p.2 ≤ p.1 ∧ p.1 < n) ∧
    (∀ r c : List Nat, r.length = nzHess → c.length = nzHess → P.hessPattern r c = .ok (rows, cols)) ∧
    ∀ x (σ : ℝ) (l : Fin m → ℝ), ∀ buf : List ℝ, buf.length = nzHess → ∃ vals, P.hessValues (arr x) σ (arr l) buf = .ok vals ∧ vals.length = nzHess ∧
      ∀ i j : Fin n, j ≤ i → ∃ dj : (Fin n → ℝ) → ℝ, (∀ y, IsPartial (fun z => σ * f z + ∑ k, l k * g k z) y j (dj y)) ∧
        IsPartial dj x i (tripletEntry rows cols vals i j)

/-- Between the bounds, where Ipopt takes bounds of `10 ^ 19` and more for infinite -/
def WithinBounds (lo hi v : ℝ) : Prop := (-10 ^ 19 < lo → lo ≤ v) ∧ (hi < 10 ^ 19 → v ≤ hi)

/-- The points that the bounds allow -/
def NlpBounds.Allows (B : NlpBounds ℝ) (g : Fin m → (Fin n → ℝ) → ℝ) (x : Fin n → ℝ) : Prop :=
  (∀ i : Fin n, WithinBounds (B.xl.getD i 0) (B.xu.getD i 0) (x i)) ∧ ∀ i : Fin m, WithinBounds (B.gl.getD i 0) (B.gu.getD i 0) (g i x)

/-- There is a bound for each variable and each constraint. -/
def NlpBounds.Complete (B : NlpBounds ℝ) (n m : Nat) : Prop := B.xl.length = n ∧ B.xu.length = n ∧ B.gl.length = m ∧ B.gu.length = m

/-- The quadratic objective `1/2 x^T Q x + b^T x` -/
noncomputable def quadratic (Q : Matrix (Fin n) (Fin n) ℝ) (b x : Fin n → ℝ) : ℝ := 1 / 2 * (x ⬝ᵥ (Q *ᵥ x)) + b ⬝ᵥ x

/-- The two components of the impulse, or the velocity, of contact `i` -/
def pairOf (x : Fin (2 * c) → ℝ) (i : Fin c) : ℝ × ℝ := (x ⟨2 * i, by omega⟩, x ⟨2 * i + 1, by omega⟩)

/-- The squared length -/
def pairSq (p : ℝ × ℝ) : ℝ := p.1 ^ 2 + p.2 ^ 2

/-- Every entry on the diagonal is stored. -/
def Csc.DiagonalStored (A : Csc ℝ) : Prop := ∀ i < A.cols, ∃ l x, A.column i = .ok l ∧ (i, x) ∈ l

/-- The quadratic program `x` is a solution of: the least value of the objective on a set -/
def Minimizes (Q : Matrix (Fin n) (Fin n) ℝ) (b : Fin n → ℝ) (S : Set (Fin n → ℝ)) (x : Fin n → ℝ) : Prop :=
  x ∈ S ∧ ∀ y ∈ S, quadratic Q b x ≤ quadratic Q b y

/-- The friction impulses in discs of radius `r` -/
def discs (r : Fin c → ℝ) : Set (Fin (2 * c) → ℝ) := {x | ∀ i, pairSq (pairOf x i) ≤ r i ^ 2}

/-- Ipopt keeps its word about convex problems: if the functions describe a problem with a convex quadratic objective and convex constraint functions
that are bounded from above only, then whenever it reports success or an acceptable point, that point is allowed and none that is allowed is better. -/
def Ipopt.SolvesConvex (ipopt : Ipopt) : Prop :=
  ∀ (call : Nat) (solver : String) (P : Nlp ℝ) (n m : Nat) (Q : Matrix (Fin n) (Fin n) ℝ) (b : Fin n → ℝ) (g : Fin m → (Fin n → ℝ) → ℝ) (nzJac nzHess : Nat)
    (st : SolverReturn) (x : Nat → ℝ), Q.IsSymm → (∀ y, 0 ≤ y ⬝ᵥ (Q *ᵥ y)) → (∀ i, ConvexOn ℝ Set.univ (g i)) → Poses P (quadratic Q b) g nzJac nzHess →
    P.bounds.Complete n m → (∀ i < m, P.bounds.gl.getD i 0 ≤ -10 ^ 19) → ipopt call solver P = some (st, x) → st = .success ∨ st = .stopAtAcceptablePoint →
    Minimizes Q b {y | P.bounds.Allows g y} (vec n x)

/-- The answer of solver number `i` is the first one with a status that is accepted. -/
def Ipopt.FirstAnswer (ipopt : Ipopt) (P : Nlp ℝ) (accepted : SolverReturn → Prop) (solvers : List String) (i : Nat) (st : SolverReturn) (x : Nat → ℝ) : Prop :=
  (∃ s, solvers[i]? = some s ∧ ipopt i s P = some (st, x)) ∧ accepted st ∧
    ∀ (j : Nat) (s : String) (st' : SolverReturn) (x' : Nat → ℝ), j < i → solvers[j]? = some s → ipopt j s P = some (st', x') → ¬ accepted st'

/-- Solved, exactly or nearly -/
def SolverReturn.Solved (st : SolverReturn) : Prop := st = .success ∨ st = .stopAtAcceptablePoint

/-- Solved, or stopped by the caller's own test -/
def SolverReturn.SolvedOrStopped (st : SolverReturn) : Prop := st.Solved ∨ st = .userRequestedStop

/-- Friction `p` at a contact with relative velocity `v` and the largest impulse `r`: the impulse is in the disc, the slip speed is `l`, friction is as
strong as it can be while there is slip, and it opposes the slip. -/
structure MaximallyDissipative (r l : ℝ) (p v : ℝ × ℝ) : Prop where
  inside : pairSq p ≤ r ^ 2
  speed : l = √(pairSq v)
  full : l = 0 ∨ pairSq p = r ^ 2
  opposes : r * v.1 = -l * p.1 ∧ r * v.2 = -l * p.2

/-! ## QL -/

/-- Entry `(i, j)` of a matrix stored by columns with `ld` rows -/
def colEntry (ld : Nat) (M : List ℝ) (i j : Nat) : ℝ := M.getD (j * ld + i) 0

/-- What QL's documentation asks of its arguments: no equality constraints here, arrays of the right sizes, work arrays that are long enough. -/
structure QlCall.WellFormed (q : QlCall) : Prop where
  equalities : q.me = 0
  rows : q.m ≤ q.mmax
  cols : q.n = q.nmax
  mnn : q.mnn = q.m + q.n + q.n
  C : q.C.length = q.nmax * q.nmax
  d : q.d.length = q.nmax
  A : ∀ a, q.A = some a → a.length = q.mmax * q.nmax
  b : ∀ a, q.b = some a → a.length = q.mmax
  linear : 0 < q.m → q.A.isSome ∧ q.b.isSome
  xl : q.xl.length = q.n
  xu : q.xu.length = q.n
  lwar : 3 * q.nmax * q.nmax / 2 + 10 * q.nmax + q.mmax + q.m + 2 ≤ q.lwar
  liwar : q.n ≤ q.liwar

/-- `x` with the multipliers `u` is optimal for: minimize `1/2 x^T C x + d^T x` subject to `A x + b ≥ 0` and `xl ≤ x ≤ xu`. The first `m` multipliers belong to
the linear constraints, then come those of the lower and those of the upper bounds. -/
structure QlCall.Optimal (q : QlCall) (x u : Nat → ℝ) : Prop where
  linear : ∀ i < q.m, 0 ≤ (∑ j ∈ Finset.range q.n, colEntry q.mmax (q.A.getD []) i j * x j) + (q.b.getD []).getD i 0
  lower : ∀ j < q.n, q.xl.getD j 0 ≤ x j
  upper : ∀ j < q.n, ∀ h, q.xu[j]? = some (some h) → x j ≤ h
  nonneg : ∀ i < q.mnn, 0 ≤ u i
  stationary : ∀ j < q.n, (∑ k ∈ Finset.range q.n, colEntry q.nmax q.C j k * x k) + q.d.getD j 0 =
    (∑ i ∈ Finset.range q.m, colEntry q.mmax (q.A.getD []) i j * u i) + u (q.m + j) - u (q.m + q.n + j)
  complementaryLinear : ∀ i < q.m, u i = 0 ∨ (∑ j ∈ Finset.range q.n, colEntry q.mmax (q.A.getD []) i j * x j) + (q.b.getD []).getD i 0 = 0
  complementaryLower : ∀ j < q.n, u (q.m + j) = 0 ∨ x j = q.xl.getD j 0
  complementaryUpper : ∀ j < q.n, u (q.m + q.n + j) = 0 ∨ q.xu[j]? = some (some (x j))

/-- QL keeps its word: when it reports no failure for a call that is well formed, what it returns is optimal. -/
def QlSolver.Solves (ql : QlSolver) : Prop := ∀ q x0, q.WellFormed → (ql q x0).2.2 = 0 → q.Optimal (ql q x0).1 (ql q x0).2.1

/-- Linearized friction with `s` directions at contact number `i`: impulses `beta`, relative velocities `v` in the directions, the multiplier `l` and the
largest total impulse `r` -/
structure LinearFriction (s i : Nat) (r l : ℝ) (beta v : Nat → ℝ) : Prop where
  nonneg : ∀ k < s, 0 ≤ beta (s * i + k)
  inside : ∑ k ∈ Finset.range s, beta (s * i + k) ≤ r
  multiplier : 0 ≤ l
  slip : ∀ k < s, 0 ≤ v (s * i + k) + l
  active : ∀ k < s, beta (s * i + k) = 0 ∨ v (s * i + k) + l = 0
  full : l = 0 ∨ ∑ k ∈ Finset.range s, beta (s * i + k) = r

end Scisim
