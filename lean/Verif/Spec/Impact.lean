import Verif.Model.Impact
/-!
# What the impact properties say
-/

namespace Scisim

open Matrix

variable {n d k : Nat} {ι : Type} [Fintype ι]

/-- kinetic energy of bodies with masses `m` -/
noncomputable def massKE (m : Fin n → ℝ) (v : Vel n d) : ℝ := 1 / 2 * ∑ p, m p.1 * v p ^ 2

/-- total momentum -/
def massMomentum (m : Fin n → ℝ) (v : Vel n d) : Fin d → ℝ := fun c => ∑ i, m i * v (i, c)

/-- total angular momentum about the origin: the components `a b` of `∑ m (q ∧ v)`; in the plane the component `0 1` is the usual scalar, in space the
components `1 2`, `2 0`, `0 1` are the usual vector -/
def massAngular (m : Fin n → ℝ) (q v : Vel n d) (a b : Fin d) : ℝ := ∑ i, m i * (q (i, a) * v (i, b) - q (i, b) * v (i, a))

/-- the contact has a normal of length one and, if it is a contact of two bodies, they are different -/
def Con.Valid : Con n d → Prop
  | .ballBall i j nrm | .kick i j nrm _ | .sphereSphere i j nrm => i ≠ j ∧ nrm ⬝ᵥ nrm = 1
  | .ballPlane _ nrm _ | .drum _ nrm | .planeSphere _ nrm _ => nrm ⬝ᵥ nrm = 1

/-- a contact of two bodies -/
def Con.Pair : Con n d → Prop
  | .ballBall _ _ _ | .kick _ _ _ _ | .sphereSphere _ _ _ => True
  | .ballPlane _ _ _ | .drum _ _ | .planeSphere _ _ _ => False

/-- the contact involves no object that moves on its own -/
def Con.Still : Con n d → Prop
  | .ballBall _ _ _ | .drum _ _ | .sphereSphere _ _ _ => True
  | .kick _ _ _ u | .ballPlane _ _ u | .planeSphere _ _ u => u = 0

/-- the normal of a contact of two bodies points along the line of centres, from the second to the first body -/
def Con.Central (q : Vel n d) : Con n d → Prop
  | .ballBall i j nrm | .kick i j nrm _ | .sphereSphere i j nrm => ∃ s : ℝ, 0 < s ∧ seg q i - seg q j = s • nrm
  | .ballPlane _ _ _ | .drum _ _ | .planeSphere _ _ _ => True

/-- a pairwise response exists (only the plane and the drum of the ball program have none) -/
def Con.Resolvable : Con n d → Prop
  | .ballBall _ _ _ | .kick _ _ _ _ | .sphereSphere _ _ _ | .planeSphere _ _ _ => True
  | .ballPlane _ _ _ | .drum _ _ => False

/-- `x` solves the linear complementarity problem `0 ≤ x ⟂ Q x + b ≥ 0` -/
def SolvesLCP (Q : Matrix (Fin k) (Fin k) ℝ) (b x : Fin k → ℝ) : Prop :=
  (∀ i, 0 ≤ x i) ∧ (∀ i, 0 ≤ (Q *ᵥ x + b) i) ∧ ∀ i, x i = 0 ∨ (Q *ᵥ x + b) i = 0

/-- the solver returns a solution of the problem it is given -/
def LcpSolver.SolvesAt (solve : LcpSolver) (Q : Matrix (Fin k) (Fin k) ℝ) (b a0 : Fin k → ℝ) : Prop := SolvesLCP Q b (solve k Q b a0)

/-- `Minv` is the inverse of the mass matrix `M`, which is symmetric and positive -/
structure MassMatrix (M Minv : Matrix ι ι ℝ) [DecidableEq ι] : Prop where
  symm : Mᵀ = M
  inv : M * Minv = 1
  pos : ∀ v : ι → ℝ, v ≠ 0 → 0 < v ⬝ᵥ (M *ᵥ v)

/-- the solver solves every problem that generalized reflections can give it for this contact set: the contacts of a duplicate free list `S`, at
velocity `v`, with coefficient `c` -/
def LcpSolver.ExactOn (solve : LcpSolver) (Minv : Matrix ι ι ℝ) (N : Matrix ι (Fin k) ℝ) (nrel : Fin k → ℝ) (c : ℝ) : Prop :=
  ∀ (S : List (Fin k)) (v : ι → ℝ), S.Nodup →
    solve.SolvesAt ((N.submatrix id S.get)ᵀ * Minv * N.submatrix id S.get)
      (fun i => (1 + c) * (((N.submatrix id S.get)ᵀ *ᵥ v) i + nrel (S.get i))) 0

/-- kinetic energy for a mass matrix -/
noncomputable def matKE (M : Matrix ι ι ℝ) (v : ι → ℝ) : ℝ := 1 / 2 * (v ⬝ᵥ (M *ᵥ v))

/-- the velocities after the impulses `alpha` at the contacts with gradients the columns of `N` -/
def afterImpulses (Minv : Matrix ι ι ℝ) (N : Matrix ι (Fin k) ℝ) (v0 : ι → ℝ) (alpha : Fin k → ℝ) : ι → ℝ := v0 + Minv *ᵥ (N *ᵥ alpha)

/-- an admissible response: pushing impulses, no contact approaching faster than `tol`, no gain of kinetic energy -/
structure Admissible (M Minv : Matrix ι ι ℝ) (N : Matrix ι (Fin k) ℝ) (nrel : Fin k → ℝ) (tol : ℝ) (v0 : ι → ℝ) (alpha : Fin k → ℝ) : Prop where
  push : ∀ c, 0 ≤ alpha c
  feasible : ∀ c, -tol ≤ (Nᵀ *ᵥ afterImpulses Minv N v0 alpha + nrel) c
  energy : matKE M (afterImpulses Minv N v0 alpha) ≤ matKE M v0

end Scisim
