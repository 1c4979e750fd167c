import Verif.Model.Staggered
/-!
# What the friction solver is supposed to do
-/

namespace Scisim

open Matrix

variable {ι : Type} [Fintype ι] {c b : Nat}

/-- `Visit p s k t`: `t` is reached from `s` by `k` alternations. In an alternation the impact operator is asked for normal impulses under the friction
force of the previous iterate, then the friction operator for friction impulses under these normal impulses. -/
inductive Visit (p : SPProblem ι c b) (s : SPState ι c b) : Nat → SPState ι c b → Prop
  | start : Visit p s 0 s
  | step {k : Nat} {t : SPState ι c b} {alpha : Fin c → ℝ} {beta : Fin b → ℝ} (before : Visit p s k t)
      (impact : p.impact k (p.v0 + p.Minv *ᵥ t.f) (if p.warmAlpha then t.alpha else 0) = .ok alpha)
      (friction : p.friction k (p.v0 + p.Minv *ᵥ (p.N *ᵥ alpha)) alpha (if p.warmBeta then t.beta else 0) = .ok beta) :
      Visit p s (k + 1) ⟨p.D *ᵥ beta, alpha, beta⟩

/-- The error of an iterate -/
def SPState.err (p : SPProblem ι c b) (s : SPState ι c b) : XR := p.errorOf s.alpha s.beta

end Scisim
