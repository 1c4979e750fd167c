import Mathlib.Data.Matrix.Mul
import Verif.Model.Float
import Verif.Model.Outcome
/-!
# Staggered projections and the one-pass friction solver

Velocities are functions of a degree of freedom `ι`. The impact and friction operators are arbitrary: they may answer differently in each call (the
first argument is the number of the call), and they may end the program. The error measure of so-bogus is an arbitrary function; its value may be
infinite or NaN.
-/

namespace Scisim

open Matrix

/-- What `StaggeredProjections::solve` computes before its loop and does not change: scisim/ConstrainedMaps/StaggeredProjections.cpp:162-209, with the
members of the solver -/
structure SPProblem (ι : Type) (c b : Nat) where
  Minv : Matrix ι ι ℝ
  /-- impact basis -/
  N : Matrix ι (Fin c) ℝ
  /-- friction basis -/
  D : Matrix ι (Fin b) ℝ
  v0 : ι → ℝ
  /-- `m_impact_operator->flow( ..., v0, vbeta, ..., alpha )` as a function of the number of the call, `vbeta` and the `alpha` handed in -/
  impact : Nat → (ι → ℝ) → (Fin c → ℝ) → Outcome (Fin c → ℝ)
  /-- `m_friction_operator->flow( ..., valpha, ..., alpha, beta, ... )` as a function of the number of the call, `valpha`, `alpha` and the `beta` handed
  in -/
  friction : Nat → (ι → ℝ) → (Fin c → ℝ) → (Fin b → ℝ) → Outcome (Fin b → ℝ)
  /-- `computeSobogusError( alpha, beta, contact_bases, sbfp )` -/
  errorOf : (Fin c → ℝ) → (Fin b → ℝ) → XR
  /-- `m_warm_start_alpha` -/
  warmAlpha : Bool
  /-- `m_warm_start_beta` -/
  warmBeta : Bool

variable {ι : Type} [Fintype ι] {c b : Nat}

/-- The variables the loop carries from one iteration to the next -/
structure SPState (ι : Type) (c b : Nat) where
  f : ι → ℝ
  alpha : Fin c → ℝ
  beta : Fin b → ℝ

/-- scisim/ConstrainedMaps/StaggeredProjections.cpp:225-236 and 296-306: the impact solve with the friction force `f` applied -/
def spImpact (p : SPProblem ι c b) (call : Nat) (f : ι → ℝ) (alpha : Fin c → ℝ) : Outcome (Fin c → ℝ) :=
  p.impact call (p.v0 + p.Minv *ᵥ f) (if p.warmAlpha then alpha else 0)

/-- scisim/ConstrainedMaps/StaggeredProjections.cpp:239-256: the friction solve with the impact impulses applied -/
def spFriction (p : SPProblem ι c b) (call : Nat) (alpha : Fin c → ℝ) (beta : Fin b → ℝ) : Outcome (Fin b → ℝ) :=
  p.friction call (p.v0 + p.Minv *ᵥ (p.N *ᵥ alpha)) alpha (if p.warmBeta then beta else 0)

/-- scisim/ConstrainedMaps/StaggeredProjections.cpp:222-257: one iteration, without the bookkeeping of the best iterate -/
def spIterate (p : SPProblem ι c b) (itr : Nat) (s : SPState ι c b) : Outcome (SPState ι c b) :=
  (spImpact p itr s.f s.alpha).bind fun alpha =>
  (spFriction p itr alpha s.beta).bind fun beta =>
  .ok ⟨p.D *ᵥ beta, alpha, beta⟩

/-- `error`, `best_alpha` and `best_beta` -/
structure SPBest (c b : Nat) where
  error : XR
  alpha : Fin c → ℝ
  beta : Fin b → ℝ

open Classical in
/-- scisim/ConstrainedMaps/StaggeredProjections.cpp:219-283: the loop, with `remaining` iterations to go, at iteration `itr`. Returns the state, the best
iterate, whether an iterate was accepted, and the number of iterations made. -/
noncomputable def spLoop (p : SPProblem ι c b) (tol : XR) : Nat → Nat → SPState ι c b → SPBest c b → Outcome (SPState ι c b × SPBest c b × Bool × Nat)
  | 0, itr, s, best => .ok (s, best, false, itr)
  | remaining + 1, itr, s, best =>
    (spIterate p itr s).bind fun s' =>
      let globalError := p.errorOf s'.alpha s'.beta
      let best' := if globalError < best.error then ⟨globalError, s'.alpha, s'.beta⟩ else best
      if globalError ≤ tol then .ok (s', best', true, itr + 1) else spLoop p tol remaining (itr + 1) s' best'

/-- What `solve` hands back -/
structure SPResult (ι : Type) (c b : Nat) where
  f : ι → ℝ
  alpha : Fin c → ℝ
  beta : Fin b → ℝ
  vout : ι → ℝ
  succeeded : Prop
  error : XR
  /-- number of iterations of the loop (not handed back by the code) -/
  iterations : Nat

/-- scisim/ConstrainedMaps/StaggeredProjections.cpp:148-318 `StaggeredProjections::solve`, started from `f0`, `alpha0`, `beta0`. Nonempty `nrel_extra` or
`drel_extra` end the program. -/
noncomputable def spSolve (p : SPProblem ι c b) (nrelExtra drelExtra : List ℝ) (maxIters : Nat) (tol : XR) (f0 : ι → ℝ) (alpha0 : Fin c → ℝ)
    (beta0 : Fin b → ℝ) : Outcome (SPResult ι c b) :=
  if nrelExtra ≠ [] then .exit else
  if drelExtra ≠ [] then .exit else
  (spLoop p tol maxIters 0 ⟨f0, alpha0, beta0⟩ ⟨.pinf, alpha0, beta0⟩).bind fun r =>
    let s : SPState ι c b := if r.2.2.1 then r.1 else ⟨p.D *ᵥ r.2.1.beta, r.2.1.alpha, r.2.1.beta⟩
    (spImpact p r.2.2.2 s.f s.alpha).bind fun alpha =>
      .ok { f := s.f, alpha := alpha, beta := s.beta, vout := p.v0 + p.Minv *ᵥ (p.N *ᵥ alpha + s.f),
            succeeded := p.errorOf alpha s.beta ≤ tol, error := p.errorOf alpha s.beta, iterations := r.2.2.2 }

/-- scisim/ConstrainedMaps/GRRFriction.cpp:29-91 `GRRFriction::solve`: one impact solve, then one friction solve. It reports success and error zero
whatever happens. The forming of the bases is not part of this definition. -/
noncomputable def grrFrictionSolve (p : SPProblem ι c b) (nrelExtra drelExtra : List ℝ) (f0 : ι → ℝ) : Outcome (SPResult ι c b) :=
  if nrelExtra ≠ [] then .exit else
  if drelExtra ≠ [] then .exit else
  (p.impact 0 p.v0 0).bind fun alpha =>
  (p.friction 0 (p.v0 + p.Minv *ᵥ (p.N *ᵥ alpha)) alpha 0).bind fun beta =>
  .ok { f := f0, alpha := alpha, beta := beta, vout := p.v0 + p.Minv *ᵥ (p.N *ᵥ alpha + p.D *ᵥ beta), succeeded := True, error := 0,
        iterations := 1 }

/-- scisim/ConstrainedMaps/StaggeredProjections.cpp:102-134 `computePerContactForce`: column `j` of `contact_bases` is `bases j`, the force of contact
`i` is the segment `dofs_per_body * i`. -/
def perContactForce {d : Nat} (numFrictionSamples : Nat) (bases : Nat → Fin d → ℝ) (alpha beta : Nat → ℝ) (i : Nat) : Fin d → ℝ :=
  (List.range numFrictionSamples).foldl (fun acc s => acc + beta (numFrictionSamples * i + s) • bases ((numFrictionSamples + 1) * i + (s + 1)))
    (alpha i • bases ((numFrictionSamples + 1) * i))

end Scisim
