import Verif.Props.Impact
/-!
# C31–C33: simultaneous impacts, generalized reflections, restitution blending
-/

namespace Scisim

open Matrix Finset

variable {n d k : Nat} {ι : Type} [Fintype ι] [DecidableEq ι]

/-- the mass matrix and its inverse of balls or spheres meet the hypothesis of the theorems below -/
theorem ball_massMatrix (m : Fin n → ℝ) (hm : ∀ i, 0 < m i) :
    MassMatrix (Matrix.diagonal fun p : Fin n × Fin d => m p.1) (ballMinv m) where
  symm := diagonal_transpose _
  inv := by
    rw [ballMinv, diagonal_mul_diagonal, ← diagonal_one]
    congr 1; funext p; exact mul_one_div_cancel (hm p.1).ne'
  pos := by
    intro v hv
    have : ∃ p, v p ≠ 0 := by by_contra h; push Not at h; exact hv (funext h)
    obtain ⟨p, hp⟩ := this
    rw [dotProduct]
    refine sum_pos' (fun q _ => ?_) ⟨p, mem_univ p, ?_⟩
    · rw [mulVec_diagonal]; nlinarith [hm q.1, mul_self_nonneg (v q), mul_nonneg (hm q.1).le (mul_self_nonneg (v q))]
    · rw [mulVec_diagonal]
      have : 0 < m p.1 * (v p * v p) := mul_pos (hm p.1) (mul_self_pos.mpr hp)
      linarith

/-! ## C31: linear complementarity -/

section LCP
variable {M Minv : Matrix ι ι ℝ} (hM : MassMatrix M Minv) (N : Matrix ι (Fin k) ℝ) (nrel : Fin k → ℝ)

omit [DecidableEq ι] in
/-- **C31.** If the solver solves the problem it is given, the impulses push, every contact ends at or above its restitution target `-c` times the velocity
it had, the impulse acts only where the target is met exactly, and no contact that was approaching or at rest approaches afterwards. -/
theorem C31_feasible_partial (solve : LcpSolver) (CoR alpha0 : Fin k → ℝ) (hCoR : ∀ c, 0 ≤ CoR c) (v0 : ι → ℝ)
    (h : solve.SolvesAt (Nᵀ * Minv * N) (lcpLinearTerm N nrel CoR v0 v0) alpha0) (c : Fin k) :
    let x := lcpFlow solve N (Nᵀ * Minv * N) nrel CoR v0 v0 alpha0
    let pre := (Nᵀ *ᵥ v0 + nrel) c
    let post := (Nᵀ *ᵥ afterImpulses Minv N v0 x + nrel) c
    0 ≤ x c ∧ -CoR c * pre ≤ post ∧ (0 < x c → post = -CoR c * pre) ∧ (pre ≤ 0 → 0 ≤ post) := by
  intro x pre post
  obtain ⟨h1, h2, h3⟩ := h
  have e := lcp_residual Minv N nrel CoR v0 x c
  have h2c := h2 c
  have h3c := h3 c
  have hb : -CoR c * pre ≤ post := by
    have : 0 ≤ post + CoR c * pre := h2c.trans_eq e
    linarith
  refine ⟨h1 c, hb, fun hpos => ?_, fun hpre => ?_⟩
  · rcases h3c with h | h
    · exact absurd h hpos.ne'
    · have : post + CoR c * pre = 0 := e.symm.trans h
      linarith
  · have := mul_nonneg (hCoR c) (neg_nonneg.mpr hpre)
    linarith

/-- **C31.** Whatever the impulses, every conserved quantity of the contacts is conserved: momentum along any motion `w` that leaves all contact gaps as
they are. -/
theorem C31_momentum (hM : MassMatrix M Minv) (w v0 : ι → ℝ) (hw : Nᵀ *ᵥ w = 0) (alpha : Fin k → ℝ) :
    w ⬝ᵥ (M *ᵥ afterImpulses Minv N v0 alpha) = w ⬝ᵥ (M *ᵥ v0) := by
  rw [afterImpulses, hM.momentum_impulse, dotProduct_comm w (N *ᵥ alpha), dot_transpose, hw, dotProduct_zero, add_zero]

include hM in
/-- **C31.** Kinetic energy for a restitution `c` shared by all contacts: the change is `-(1-c)/(2(1+c))` times the quadratic form of the impulses, plus
the work of moving obstacles. Without moving obstacles it never increases for `c` in `[0,1]`, and is conserved for `c = 1`. -/
theorem C31_energy (solve : LcpSolver) (c : ℝ) (h0 : 0 ≤ c) (alpha0 : Fin k → ℝ) (v0 : ι → ℝ)
    (h : solve.SolvesAt (Nᵀ * Minv * N) (lcpLinearTerm N nrel (fun _ => c) v0 v0) alpha0) :
    let x := lcpFlow solve N (Nᵀ * Minv * N) nrel (fun _ => c) v0 v0 alpha0
    matKE M (afterImpulses Minv N v0 x) = matKE M v0 - (1 - c) / (2 * (1 + c)) * (x ⬝ᵥ ((Nᵀ * Minv * N) *ᵥ x)) - x ⬝ᵥ nrel ∧
    (nrel = 0 → c ≤ 1 → matKE M (afterImpulses Minv N v0 x) ≤ matKE M v0) ∧
    (nrel = 0 → c = 1 → matKE M (afterImpulses Minv N v0 x) = matKE M v0) := by
  intro x
  have e := lcp_energy hM N nrel c h0 v0 0 x h
  simp only [sub_zero, mulVec_zero, add_zero] at e
  refine ⟨e, fun hn h1 => ?_, fun hn h1 => ?_⟩
  · rw [afterImpulses, e, hn, dotProduct_zero, sub_zero]
    have h2 : 0 ≤ x ⬝ᵥ ((Nᵀ * Minv * N) *ᵥ x) := by rw [quad_eq]; exact hM.minv_nonneg _
    have h3 : 0 ≤ (1 - c) / (2 * (1 + c)) := div_nonneg (by linarith) (by linarith)
    nlinarith
  · rw [afterImpulses, e, hn, h1]; simp

include hM in
/-- **C31.** The quadratic program that the operators hand to their solver has exactly the solutions of the complementarity problem. -/
theorem C31_quadratic_program (b x : Fin k → ℝ) :
    SolvesLCP (Nᵀ * Minv * N) b x ↔ (∀ i, 0 ≤ x i) ∧
      ∀ y : Fin k → ℝ, (∀ i, 0 ≤ y i) → 1 / 2 * (x ⬝ᵥ ((Nᵀ * Minv * N) *ᵥ x)) + b ⬝ᵥ x ≤ 1 / 2 * (y ⬝ᵥ ((Nᵀ * Minv * N) *ᵥ y)) + b ⬝ᵥ y := by
  refine qp_iff_lcp ?_ (fun x => by rw [quad_eq]; exact hM.minv_nonneg _) b x
  rw [transpose_mul, transpose_mul, transpose_transpose, hM.minv_symm, Matrix.mul_assoc]

include hM in
/-- **C31.** The response is unique: whatever solution a solver finds, the velocities after the impact are the same. -/
theorem C31_unique (b x y : Fin k → ℝ) (v0 : ι → ℝ) (hx : SolvesLCP (Nᵀ * Minv * N) b x) (hy : SolvesLCP (Nᵀ * Minv * N) b y) :
    afterImpulses Minv N v0 x = afterImpulses Minv N v0 y := by
  have h1 : (x - y) ⬝ᵥ ((Nᵀ * Minv * N) *ᵥ (x - y)) ≤ 0 := by
    have e : (Nᵀ * Minv * N) *ᵥ (x - y) = ((Nᵀ * Minv * N) *ᵥ x + b) - ((Nᵀ * Minv * N) *ᵥ y + b) := by rw [mulVec_sub]; abel
    rw [e, sub_dotProduct, dotProduct_sub, dotProduct_sub, compl_dot hx.2.2, compl_dot hy.2.2]
    have := dot_nonneg' hx.1 hy.2.1
    have := dot_nonneg' hy.1 hx.2.1
    linarith
  rw [quad_eq] at h1
  have h2 := hM.minv_eq_zero h1
  rw [mulVec_sub, sub_eq_zero] at h2
  rw [afterImpulses, afterImpulses, h2]

/-- **C31.** The problem has a solution, for all velocities, obstacles and restitutions, if some motion separates all contacts. -/
theorem C31_solvable (hM : MassMatrix M Minv) (w : ι → ℝ) (hw : ∀ c, 0 < (Nᵀ *ᵥ w) c) (b : Fin k → ℝ) : ∃ x, SolvesLCP (Nᵀ * Minv * N) b x :=
  lcp_exists hM N w hw b

end LCP

/-- **C31.** For balls and spheres: total momentum, and angular momentum for normals along the lines of centres, are conserved by impulses at contacts
between bodies. -/
theorem C31_momentum_balls (cons : Fin k → Con n d) (hp : ∀ c, (cons c).Pair) (m : Fin n → ℝ) (hm : ∀ i, 0 < m i) (v0 : Vel n d) (alpha : Fin k → ℝ) :
    massMomentum m (afterImpulses (ballMinv m) (computeN cons) v0 alpha) = massMomentum m v0 ∧
    ∀ q : Vel n d, (∀ c, (cons c).Central q) → massAngular m q (afterImpulses (ballMinv m) (computeN cons) v0 alpha) = massAngular m q v0 := by
  have key : ∀ w : Vel n d, (∀ c, w ⬝ᵥ (cons c).gradg = 0) →
      ∑ p, m p.1 * w p * (afterImpulses (ballMinv m) (computeN cons) v0 alpha) p = ∑ p, m p.1 * w p * v0 p := by
    intro w hw
    have h := C31_momentum (computeN cons) (ball_massMatrix m hm) w v0 (by
      funext c
      have := hw c
      rw [dotProduct_comm] at this
      exact this) alpha
    simp only [dotProduct, mulVec_diagonal] at h
    have r : ∀ v : Vel n d, ∑ p, m p.1 * w p * v p = ∑ p, w p * (m p.1 * v p) := fun v => sum_congr rfl fun p _ => by ring
    rw [r, r]; exact h
  constructor
  · funext e
    rw [massMomentum_eq, massMomentum_eq]
    exact key _ fun c => (cons c).gradg_translation (hp c) e
  · intro q hq
    funext e f
    rw [massAngular_eq, massAngular_eq]
    exact key _ fun c => (cons c).gradg_rotation (hp c) q (hq c) e f

/-- the row of three balls as a contact matrix in one dimension -/
def rowN : Matrix (Fin 3) (Fin 2) ℝ := !![-1, 0; 1, -1; 0, 1]

theorem rowN_mulVec (a b : ℝ) : rowN *ᵥ ![a, b] = ![-a, a - b, b] := by
  funext i
  fin_cases i <;> simp [rowN, mulVec, dotProduct, Fin.sum_univ_two] <;> ring

theorem rowN_transpose_mulVec (a b c : ℝ) : rowNᵀ *ᵥ ![a, b, c] = ![b - a, c - b] := by
  funext i
  fin_cases i <;> simp [rowN, mulVec, dotProduct, Fin.sum_univ_three, vecHead, vecTail] <;> ring

theorem rowN_quad (a b : ℝ) : (rowNᵀ * (1 : Matrix (Fin 3) (Fin 3) ℝ) * rowN) *ᵥ ![a, b] = ![2 * a - b, 2 * b - a] := by
  rw [Matrix.mul_one, ← mulVec_mulVec, rowN_mulVec, rowN_transpose_mulVec]
  congr 1
  · ring
  · congr 1; ring

theorem rowN_after (v0 v1 v2 a b : ℝ) : afterImpulses 1 rowN ![v0, v1, v2] ![a, b] = ![v0 - a, v1 + a - b, v2 + b] := by
  rw [afterImpulses, one_mulVec, rowN_mulVec]
  funext i
  fin_cases i
  · show v0 + -a = v0 - a; ring
  · show v1 + (a - b) = v1 + a - b; ring
  · rfl

theorem rowN_term (v0 v1 v2 c0 c1 : ℝ) :
    lcpLinearTerm rowN 0 ![c0, c1] ![v0, v1, v2] ![v0, v1, v2] = ![(1 + c0) * (v1 - v0), (1 + c1) * (v2 - v1)] := by
  rw [lcpLinearTerm, rowN_transpose_mulVec]
  funext i
  fin_cases i
  · show v1 - v0 + 0 + c0 * (v1 - v0 + 0) = (1 + c0) * (v1 - v0); ring
  · show v2 - v1 + 0 + c1 * (v2 - v1 + 0) = (1 + c1) * (v2 - v1); ring

theorem one_massMatrix : MassMatrix (1 : Matrix ι ι ℝ) 1 where
  symm := transpose_one
  inv := Matrix.mul_one _
  pos := by
    intro v hv
    rw [one_mulVec]
    have : ∃ p, v p ≠ 0 := by by_contra h; push Not at h; exact hv (funext h)
    obtain ⟨p, hp⟩ := this
    exact sum_pos' (fun q _ => mul_self_nonneg _) ⟨p, mem_univ p, mul_self_pos.mpr hp⟩

/-- **C31, finding.** The claim that no contact penetrates after the impact is false for positive restitution: the constraint is `post ≥ -c pre`, which for
a contact that was separating allows approach. Here, with restitution one, the first contact separates with velocity 1 before and approaches with
velocity 1/2 after the impact, in every solution. -/
theorem C31_false_nonpenetrating :
    ∃ v0 : Fin 3 → ℝ, (∃ x, SolvesLCP (rowNᵀ * (1 : Matrix (Fin 3) (Fin 3) ℝ) * rowN) (lcpLinearTerm rowN 0 (fun _ => 1) v0 v0) x) ∧
      (rowNᵀ *ᵥ v0) 0 = 1 ∧
      ∀ x, SolvesLCP (rowNᵀ * (1 : Matrix (Fin 3) (Fin 3) ℝ) * rowN) (lcpLinearTerm rowN 0 (fun _ => 1) v0 v0) x →
        (rowNᵀ *ᵥ afterImpulses 1 rowN v0 x) 0 = -1 / 2 := by
  have e1 : (fun _ => 1 : Fin 2 → ℝ) = ![1, 1] := by funext i; fin_cases i <;> rfl
  have hs : SolvesLCP (rowNᵀ * (1 : Matrix (Fin 3) (Fin 3) ℝ) * rowN) (lcpLinearTerm rowN 0 (fun _ => 1) ![0, 1, -1 / 2] ![0, 1, -1 / 2]) ![0, 3 / 2] := by
    unfold SolvesLCP
    rw [e1, rowN_term, rowN_quad]
    refine ⟨fun i => ?_, fun i => ?_, fun i => ?_⟩
    · fin_cases i <;> norm_num
    · fin_cases i <;> norm_num
    · fin_cases i <;> norm_num
  refine ⟨![0, 1, -1 / 2], ⟨_, hs⟩, ?_, fun x hx => ?_⟩
  · rw [rowN_transpose_mulVec]; norm_num
  · rw [C31_unique one_massMatrix rowN _ x _ _ hx hs, rowN_after, rowN_transpose_mulVec]
    norm_num

/-- **C31, finding.** With different restitutions at different contacts kinetic energy can grow, although all are in `[0,1]` and the solution is exact: here
from 5 to 6. (The property asks for a shared restitution; the operators accept any.) -/
theorem C31_false_mixed_restitution :
    ∃ (v0 : Fin 3 → ℝ) (CoR x : Fin 2 → ℝ), (∀ c, 0 ≤ CoR c ∧ CoR c ≤ 1) ∧ SolvesLCP (rowNᵀ * (1 : Matrix (Fin 3) (Fin 3) ℝ) * rowN) (lcpLinearTerm rowN 0 CoR v0 v0) x ∧
      matKE 1 v0 = 5 ∧ matKE 1 (afterImpulses 1 rowN v0 x) = 6 := by
  refine ⟨![0, 1, -3], ![0, 1], ![2, 5], fun c => ?_, ?_, ?_, ?_⟩
  · fin_cases c <;> norm_num
  · unfold SolvesLCP
    rw [rowN_term, rowN_quad]
    refine ⟨fun i => ?_, fun i => ?_, fun i => ?_⟩
    · fin_cases i <;> norm_num
    · fin_cases i <;> norm_num
    · right; fin_cases i <;> norm_num
  · rw [matKE, one_mulVec, dotProduct, Fin.sum_univ_three]; show (1 / 2 * ((0 : ℝ) * 0 + 1 * 1 + -3 * -3)) = 5; norm_num
  · rw [rowN_after, matKE, one_mulVec, dotProduct, Fin.sum_univ_three]
    show (1 / 2 * (((0 : ℝ) - 2) * (0 - 2) + (1 + 2 - 5) * (1 + 2 - 5) + (-3 + 5) * (-3 + 5))) = 6
    norm_num

/-- a solver: picks a solution if there is one -/
noncomputable def choiceSolver : LcpSolver := open Classical in fun _ Q b _ => if h : ∃ x, SolvesLCP Q b x then h.choose else 0

theorem choiceSolver_solves (Q : Matrix (Fin k) (Fin k) ℝ) (b a : Fin k → ℝ) (h : ∃ x, SolvesLCP Q b x) : choiceSolver.SolvesAt Q b a := by
  unfold LcpSolver.SolvesAt choiceSolver
  rw [dif_pos h]; exact h.choose_spec

/-- there is a solver that meets the hypothesis of C31 for the row of balls at all velocities -/
example (b a : Fin 2 → ℝ) : choiceSolver.SolvesAt (rowNᵀ * (1 : Matrix (Fin 3) (Fin 3) ℝ) * rowN) b a :=
  choiceSolver_solves _ _ _ (C31_solvable rowN one_massMatrix ![0, 1, 2] (fun c => by
    fin_cases c <;> norm_num [rowN_transpose_mulVec]) b)

/-! ## C32: generalized reflections -/

omit [DecidableEq ι] in
/-- one round adds to the momentum along a motion that separates all contacts -/
theorem gr_gain (N : Matrix ι (Fin k) ℝ) (nrel : Fin k → ℝ) (c : ℝ) (hc : 0 ≤ c) (tol : ℝ) (Minv : Matrix ι ι ℝ) (B : ℝ) (hBp : 0 < B)
    (hQB : ∀ i j, (Nᵀ * Minv * N) i j ≤ B) (w : ι → ℝ) (μ : ℝ) (hμ : 0 ≤ μ) (hw : ∀ i, μ ≤ (Nᵀ *ᵥ w) i) (S : List (Fin k)) (hlen : 0 < S.length) (v : ι → ℝ)
    (hS : ∀ i ∈ S, (Nᵀ *ᵥ v + nrel) i < -tol) (x : Fin S.length → ℝ)
    (hx : SolvesLCP ((N.submatrix id S.get)ᵀ * Minv * N.submatrix id S.get) (lcpLinearTerm (N.submatrix id S.get) (nrel ∘ S.get) (fun _ => c) v v) x)
    (htol : 0 ≤ tol) :
    tol / B * μ ≤ x ⬝ᵥ ((N.submatrix id S.get)ᵀ *ᵥ w) := by
  have h2 := hx.2.1 ⟨0, hlen⟩
  rw [lcp_residual, post_vrel] at h2
  have h3 : (((N.submatrix id S.get)ᵀ * Minv * N.submatrix id S.get) *ᵥ x) ⟨0, hlen⟩ ≤ B * ∑ i, x i := by
    rw [mulVec, dotProduct, mul_sum]
    refine sum_le_sum fun j _ => mul_le_mul_of_nonneg_right ?_ (hx.1 j)
    exact hQB (S.get ⟨0, hlen⟩) (S.get j)
  have h4 : ((N.submatrix id S.get)ᵀ *ᵥ v + nrel ∘ S.get) ⟨0, hlen⟩ < -tol := hS _ (List.get_mem S ⟨0, hlen⟩)
  have h5 : tol ≤ B * ∑ i, x i := by
    rw [Pi.add_apply] at h2
    have h6 : c * ((N.submatrix id S.get)ᵀ *ᵥ v + nrel ∘ S.get) ⟨0, hlen⟩ ≤ 0 := by nlinarith
    linarith
  have h6 : tol / B ≤ ∑ i, x i := by rw [div_le_iff₀ hBp]; linarith
  have h7 : (∑ i, x i) * μ ≤ x ⬝ᵥ ((N.submatrix id S.get)ᵀ *ᵥ w) := by
    rw [dotProduct, sum_mul]
    exact sum_le_sum fun j _ => mul_le_mul_of_nonneg_left (hw _) (hx.1 j)
  exact (mul_le_mul_of_nonneg_right h6 hμ).trans h7

section GR
variable {M Minv : Matrix ι ι ℝ} (hM : MassMatrix M Minv) (N : Matrix ι (Fin k) ℝ) (nrel : Fin k → ℝ) (solve : LcpSolver) (c : ℝ)
  (hs : solve.ExactOn Minv N nrel c) (tol : ℝ) (v0 : ι → ℝ)

omit [DecidableEq ι] in
theorem grFlow_ok {fuel : Nat} {alpha : Fin k → ℝ} {fin : Bool} (h : grFlow solve tol Minv N nrel (fun _ => c) v0 fuel = .ok (alpha, fin)) :
    grLoop solve tol Minv N nrel (fun _ => c) v0 fuel 0 (afterImpulses Minv N v0 0) = (alpha, fin) := by
  unfold grFlow at h
  by_cases hk : 0 < k
  · simp only [dif_pos hk, ne_eq, not_true_eq_false, exists_false, if_false, Outcome.ok.injEq] at h
    rw [← h]; simp [afterImpulses]
  · simp [dif_neg hk] at h

include hs

/-- **C32.** The impulses push, after any number of rounds. -/
theorem C32_push (fuel : Nat) (alpha : Fin k → ℝ) (fin : Bool) (h : grFlow solve tol Minv N nrel (fun _ => c) v0 fuel = .ok (alpha, fin)) (i : Fin k) :
    0 ≤ alpha i := by
  have := (grLoop_induct solve tol Minv N nrel (fun _ => c) v0 (fun a => ∀ i, 0 ≤ a i) (fun a ha _ => by
    obtain ⟨x, hx, e, _⟩ := grRound_spec solve Minv N nrel c v0 hs _ (grViolated_nodup tol N nrel (afterImpulses Minv N v0 a)) a
    rw [e]
    exact fun i => (ha i).trans (grScatter_nonneg _ (grViolated_nodup tol N nrel _) x hx.1 a i)) fuel 0 (fun _ => le_refl _)).1 i
  rw [grFlow_ok N nrel solve c tol v0 h] at this
  exact this

omit hs [DecidableEq ι] in
/-- **C32.** When it stops by itself, no contact approaches faster than the tolerance at the velocities that its impulses give, whatever its solver does. -/
theorem C32_feasible (fuel : Nat) (alpha : Fin k → ℝ) (h : grFlow solve tol Minv N nrel (fun _ => c) v0 fuel = .ok (alpha, true)) (i : Fin k) :
    -tol ≤ (Nᵀ *ᵥ afterImpulses Minv N v0 alpha + nrel) i := by
  have := (grLoop_induct solve tol Minv N nrel (fun _ => c) v0 (fun _ => True) (fun _ _ _ => trivial) fuel 0 trivial).2
  rw [grFlow_ok N nrel solve c tol v0 h] at this
  exact this rfl i

include hM

/-- **C32.** Kinetic energy never increases, after any number of rounds, for restitution in `[0,1]`; with moving obstacles this is what an observer sees who
moves with `z`, if no obstacle approaches in the observer's frame. -/
theorem C32_energy (h01 : 0 ≤ c ∧ c ≤ 1) (z : ι → ℝ) (hz : ∀ i, 0 ≤ (nrel + Nᵀ *ᵥ z) i) (fuel : Nat) (alpha : Fin k → ℝ) (fin : Bool)
    (h : grFlow solve tol Minv N nrel (fun _ => c) v0 fuel = .ok (alpha, fin)) :
    matKE M (afterImpulses Minv N v0 alpha - z) ≤ matKE M (v0 - z) := by
  have := (grLoop_induct solve tol Minv N nrel (fun _ => c) v0 (fun a => matKE M (afterImpulses Minv N v0 a - z) ≤ matKE M (v0 - z)) (fun a ha _ => by
    obtain ⟨x, hx, e, e2⟩ := grRound_spec solve Minv N nrel c v0 hs _ (grViolated_nodup tol N nrel (afterImpulses Minv N v0 a)) a
    rw [e, e2]
    exact (grRound_energy hM N nrel c h01 z hz _ _ x hx).trans ha) fuel 0 (by simp [afterImpulses])).1
  rw [grFlow_ok N nrel solve c tol v0 h] at this
  exact this

/-- **C32.** With restitution one, without moving obstacles, kinetic energy is conserved, after any number of rounds. -/
theorem C32_energy_conserved (hc : c = 1) (hn : ∀ i, nrel i = 0) (fuel : Nat) (alpha : Fin k → ℝ) (fin : Bool)
    (h : grFlow solve tol Minv N nrel (fun _ => c) v0 fuel = .ok (alpha, fin)) :
    matKE M (afterImpulses Minv N v0 alpha) = matKE M v0 := by
  have := (grLoop_induct solve tol Minv N nrel (fun _ => c) v0 (fun a => matKE M (afterImpulses Minv N v0 a) = matKE M v0) (fun a ha _ => by
    obtain ⟨x, hx, e, e2⟩ := grRound_spec solve Minv N nrel c v0 hs _ (grViolated_nodup tol N nrel (afterImpulses Minv N v0 a)) a
    rw [e, e2]
    have h1 := lcp_energy hM _ _ c (by rw [hc]; norm_num) _ 0 x hx
    rw [sub_zero, sub_zero] at h1
    rw [h1, hc, ha]
    have : nrel ∘ (grViolated tol N nrel (afterImpulses Minv N v0 a)).get +
        (N.submatrix id (grViolated tol N nrel (afterImpulses Minv N v0 a)).get)ᵀ *ᵥ (0 : ι → ℝ) = 0 := by
      rw [mulVec_zero, add_zero]; funext i; exact hn _
    rw [this, dotProduct_zero]; ring) fuel 0 (by simp [afterImpulses])).1
  rw [grFlow_ok N nrel solve c tol v0 h] at this
  exact this

/-- **C32.** The operator stops by itself, for a positive tolerance and restitution in `[0,1]`, if some motion separates all contacts at once. -/
theorem C32_terminates (hk : 0 < k) (h01 : 0 ≤ c ∧ c ≤ 1) (ht : 0 < tol) (w : ι → ℝ) (hw : ∀ i, 0 < (Nᵀ *ᵥ w) i) :
    ∃ fuel alpha, grFlow solve tol Minv N nrel (fun _ => c) v0 fuel = .ok (alpha, true) := by
  have hne : (univ : Finset (Fin k)).Nonempty := ⟨⟨0, hk⟩, mem_univ _⟩
  obtain ⟨lam, hlam⟩ : ∃ lam : ℝ, ∀ i, 0 ≤ (nrel + Nᵀ *ᵥ (lam • w)) i := by
    obtain ⟨c0, _, hc0⟩ := exists_max_image univ (fun i => -nrel i / (Nᵀ *ᵥ w) i) hne
    refine ⟨-nrel c0 / (Nᵀ *ᵥ w) c0, fun i => ?_⟩
    have := hc0 i (mem_univ i)
    rw [div_le_iff₀ (hw i)] at this
    rw [mulVec_smul, Pi.add_apply, Pi.smul_apply, smul_eq_mul]; linarith
  obtain ⟨c1, _, hc1⟩ := exists_min_image univ (fun i => (Nᵀ *ᵥ w) i) hne
  -- a bound on the entries of the matrix
  set Q := Nᵀ * Minv * N with hQ
  set B := 1 + ∑ i, ∑ j, |Q i j| with hB
  have hBp : 0 < B := by
    have : 0 ≤ ∑ i, ∑ j, |Q i j| := sum_nonneg fun i _ => sum_nonneg fun j _ => abs_nonneg _
    linarith
  have hQB : ∀ i j, Q i j ≤ B := by
    intro i j
    have h1 : |Q i j| ≤ ∑ j, |Q i j| := single_le_sum (f := fun j => |Q i j|) (fun j _ => abs_nonneg _) (mem_univ j)
    have h2 : ∑ j, |Q i j| ≤ ∑ i, ∑ j, |Q i j| :=
      single_le_sum (f := fun i => ∑ j, |Q i j|) (fun i _ => sum_nonneg fun j _ => abs_nonneg _) (mem_univ i)
    have := le_abs_self (Q i j)
    linarith
  set δ := tol / B * (Nᵀ *ᵥ w) c1 with hδ
  have hδp : 0 < δ := mul_pos (div_pos ht hBp) (hw c1)
  set P : (Fin k → ℝ) → Prop := fun a => matKE M (afterImpulses Minv N v0 a - lam • w) ≤ matKE M (v0 - lam • w) with hP
  have hstep : ∀ alpha, P alpha → (grViolated tol N nrel (afterImpulses Minv N v0 alpha)).length ≠ 0 →
      P (grRound solve Minv N nrel (fun _ => c) (grViolated tol N nrel (afterImpulses Minv N v0 alpha)) (afterImpulses Minv N v0 alpha) alpha) := by
    intro a ha _
    obtain ⟨x, hx, e, e2⟩ := grRound_spec solve Minv N nrel c v0 hs _ (grViolated_nodup tol N nrel (afterImpulses Minv N v0 a)) a
    simp only [hP] at ha ⊢
    rw [e, e2]
    exact (grRound_energy hM N nrel c h01 _ hlam _ _ x hx).trans ha
  have hgain : ∀ alpha, P alpha → (grViolated tol N nrel (afterImpulses Minv N v0 alpha)).length ≠ 0 →
      w ⬝ᵥ (M *ᵥ afterImpulses Minv N v0 alpha) + δ ≤ w ⬝ᵥ (M *ᵥ afterImpulses Minv N v0
        (grRound solve Minv N nrel (fun _ => c) (grViolated tol N nrel (afterImpulses Minv N v0 alpha)) (afterImpulses Minv N v0 alpha) alpha)) := by
    intro a _ hl
    obtain ⟨x, hx, e, e2⟩ := grRound_spec solve Minv N nrel c v0 hs _ (grViolated_nodup tol N nrel (afterImpulses Minv N v0 a)) a
    rw [e, e2, hM.momentum_impulse, dotProduct_comm w (_ *ᵥ x), dot_transpose]
    have := gr_gain N nrel c h01.1 tol Minv B hBp hQB w ((Nᵀ *ᵥ w) c1) (hw c1).le (fun i => hc1 i (mem_univ i))
      (grViolated tol N nrel (afterImpulses Minv N v0 a)) (Nat.pos_of_ne_zero hl) (afterImpulses Minv N v0 a) (fun i hi => mem_grViolated.mp hi) x hx ht.le
    linarith
  obtain ⟨F, hF⟩ := exists_nat_gt ((matKE M w + matKE M (v0 - lam • w) + w ⬝ᵥ (M *ᵥ (lam • w)) - w ⬝ᵥ (M *ᵥ afterImpulses Minv N v0 0)) / δ)
  have hflow : ∀ fuel, grFlow solve tol Minv N nrel (fun _ => c) v0 fuel =
      .ok (grLoop solve tol Minv N nrel (fun _ => c) v0 fuel 0 (afterImpulses Minv N v0 0)) := by
    intro fuel
    unfold grFlow
    simp [dif_pos hk, afterImpulses]
  have h0 : P 0 := by simp only [hP]; simp [afterImpulses]
  refine ⟨F, (grLoop solve tol Minv N nrel (fun _ => c) v0 F 0 (afterImpulses Minv N v0 0)).1, ?_⟩
  rw [hflow]
  by_cases hdone : (grLoop solve tol Minv N nrel (fun _ => c) v0 F 0 (afterImpulses Minv N v0 0)).2 = true
  · rw [← hdone]
  · exfalso
    have h1 := grLoop_gain solve tol Minv N nrel (fun _ => c) v0 P hstep (fun a => w ⬝ᵥ (M *ᵥ afterImpulses Minv N v0 a)) δ hgain F 0 h0
      (by simpa using hdone)
    have h2 := (grLoop_induct solve tol Minv N nrel (fun _ => c) v0 P hstep F 0 h0).1
    simp only [hP] at h2
    have h3 := hM.momentum_le w (afterImpulses Minv N v0 (grLoop solve tol Minv N nrel (fun _ => c) v0 F 0 (afterImpulses Minv N v0 0)).1 - lam • w)
    rw [mulVec_sub, dotProduct_sub] at h3
    rw [div_lt_iff₀ hδp] at hF
    linarith

end GR

omit [DecidableEq ι] in
/-- **C32.** With different restitutions the operator stops the program. -/
theorem C32_exit (solve : LcpSolver) (tol : ℝ) (Minv : Matrix ι ι ℝ) (N : Matrix ι (Fin k) ℝ) (nrel CoR : Fin k → ℝ) (v0 : ι → ℝ) (fuel : Nat)
    (i j : Fin k) (h : CoR i ≠ CoR j) : grFlow solve tol Minv N nrel CoR v0 fuel = .exit := by
  have hk : 0 < k := i.pos
  unfold grFlow
  rw [dif_pos hk, if_pos]
  by_contra hall
  push Not at hall
  exact h ((hall i).trans (hall j).symm)

/-- the row of three balls meets the hypotheses: the solver that picks a solution is exact on all of its subproblems, and the operator stops -/
theorem choiceSolver_exactOn {M Minv : Matrix ι ι ℝ} (hM : MassMatrix M Minv) (N : Matrix ι (Fin k) ℝ) (nrel : Fin k → ℝ) (c : ℝ) (w : ι → ℝ)
    (hw : ∀ i, 0 < (Nᵀ *ᵥ w) i) : choiceSolver.ExactOn Minv N nrel c := fun S _ _ =>
  choiceSolver_solves _ _ _ (C31_solvable _ hM w (fun i => hw (S.get i)) _)

example : choiceSolver.ExactOn 1 rowN 0 1 ∧ ∃ fuel alpha, grFlow choiceSolver (1 / 100) 1 rowN 0 (fun _ => 1) ![1, 0, -1] fuel = .ok (alpha, true) := by
  have hw : ∀ i, 0 < (rowNᵀ *ᵥ ![0, 1, 2]) i := fun c => by
    fin_cases c <;> norm_num [rowN_transpose_mulVec]
  have hs := choiceSolver_exactOn one_massMatrix rowN 0 1 _ hw
  exact ⟨hs, C32_terminates one_massMatrix rowN 0 choiceSolver 1 hs _ _ (by norm_num) (by norm_num) (by norm_num) _ hw⟩

/-! ## C33: restitution blending -/

/-- **C33.** For a restitution strictly between zero and one the operator returns the restitution-weighted combination of the inelastic and the elastic
response, both computed from scratch; for zero and one it returns what the inelastic or elastic operator returns. -/
theorem C33_blend (elastic inelastic : (Fin k → ℝ) → (Fin k → ℝ) → Outcome (Fin k → ℝ)) (hk : 0 < k) (c : ℝ) (alpha : Fin k → ℝ) :
    grrFlow elastic inelastic (fun _ => c) alpha =
      if c = 0 then inelastic 0 alpha
      else if c = 1 then elastic 1 alpha
      else (inelastic 0 0).bind fun a0 => (elastic 1 0).bind fun a1 => .ok fun i => (1 - c) * a0 i + c * a1 i := by
  unfold grrFlow
  rw [dif_pos hk]
  simp only [ne_eq, not_true_eq_false, exists_false, if_false]
  by_cases h0 : c = 0
  · subst h0; rw [if_pos rfl, if_pos rfl]; rfl
  · by_cases h1 : c = 1
    · subst h1; rw [if_neg h0, if_neg h0, if_pos rfl, if_pos rfl]; rfl
    · rw [if_neg h0, if_neg h0, if_neg h1, if_neg h1]; rfl

theorem matKE_convex {M Minv : Matrix ι ι ℝ} (hM : MassMatrix M Minv) (u v : ι → ℝ) (c : ℝ) (h0 : 0 ≤ c) (h1 : c ≤ 1) :
    matKE M ((1 - c) • u + c • v) ≤ (1 - c) * matKE M u + c * matKE M v := by
  have h := hM.ke_nonneg (u - v)
  simp only [matKE, mulVec_add, mulVec_sub, mulVec_smul, dotProduct_add, dotProduct_sub, add_dotProduct, sub_dotProduct, smul_dotProduct, dotProduct_smul,
    smul_eq_mul] at h ⊢
  rw [hM.dot_comm v u] at h ⊢
  have : 0 ≤ c * (1 - c) := mul_nonneg h0 (by linarith)
  nlinarith

/-- **C33.** If the inelastic and elastic responses are admissible (pushing impulses, no contact approaching beyond the tolerance, no gain of energy), so is
every response of the operator for restitution in `[0,1]`. -/
theorem C33_admissible {M Minv : Matrix ι ι ℝ} (hM : MassMatrix M Minv) (N : Matrix ι (Fin k) ℝ) (nrel : Fin k → ℝ) (tol : ℝ) (v0 : ι → ℝ)
    (elastic inelastic : (Fin k → ℝ) → (Fin k → ℝ) → Outcome (Fin k → ℝ))
    (hi : ∀ a0 a, inelastic 0 a0 = .ok a → Admissible M Minv N nrel tol v0 a)
    (he : ∀ a0 a, elastic 1 a0 = .ok a → Admissible M Minv N nrel tol v0 a)
    (CoR : Fin k → ℝ) (hCoR : ∀ i, 0 ≤ CoR i ∧ CoR i ≤ 1) (alpha0 alpha : Fin k → ℝ) (h : grrFlow elastic inelastic CoR alpha0 = .ok alpha) :
    Admissible M Minv N nrel tol v0 alpha := by
  by_cases hk : 0 < k
  · by_cases hd : ∃ i, CoR i ≠ CoR ⟨0, hk⟩
    · unfold grrFlow at h; rw [dif_pos hk, if_pos hd] at h; cases h
    · push Not at hd
      obtain ⟨c, hc⟩ : ∃ c, CoR = fun _ => c := ⟨_, funext hd⟩
      subst hc
      have h01 := hCoR ⟨0, hk⟩
      rw [C33_blend elastic inelastic hk] at h
      by_cases h0 : c = 0
      · rw [if_pos h0] at h; exact hi _ _ h
      · by_cases h1 : c = 1
        · rw [if_neg h0, if_pos h1] at h; exact he _ _ h
        · rw [if_neg h0, if_neg h1] at h
          obtain ⟨a0, e0, h⟩ := Outcome.bind_eq_ok.mp h
          obtain ⟨a1, e1, h⟩ := Outcome.bind_eq_ok.mp h
          cases h
          obtain ⟨p0, f0, k0⟩ := hi _ _ e0
          obtain ⟨p1, f1, k1⟩ := he _ _ e1
          have e : afterImpulses Minv N v0 (fun i => (1 - c) * a0 i + c * a1 i) =
              (1 - c) • afterImpulses Minv N v0 a0 + c • afterImpulses Minv N v0 a1 := by
            have : (fun i => (1 - c) * a0 i + c * a1 i) = (1 - c) • a0 + c • a1 := rfl
            rw [this]
            simp only [afterImpulses, mulVec_add, mulVec_smul, smul_add]
            have : v0 = (1 - c) • v0 + c • v0 := by rw [← add_smul]; simp
            nth_rewrite 1 [this]
            abel
          refine ⟨fun i => ?_, fun i => ?_, ?_⟩
          · exact add_nonneg (mul_nonneg (by linarith [h01.2]) (p0 i)) (mul_nonneg h01.1 (p1 i))
          · rw [e]
            have g0 := f0 i
            have g1 := f1 i
            simp only [mulVec_add, mulVec_smul, Pi.add_apply, Pi.smul_apply, smul_eq_mul] at g0 g1 ⊢
            nlinarith [h01.1, h01.2, mul_le_mul_of_nonneg_left g0 (by linarith [h01.2] : 0 ≤ 1 - c), mul_le_mul_of_nonneg_left g1 h01.1]
          · rw [e]
            refine (matKE_convex hM _ _ c h01.1 h01.2).trans ?_
            nlinarith [mul_le_mul_of_nonneg_left k0 (by linarith [h01.2] : 0 ≤ 1 - c), mul_le_mul_of_nonneg_left k1 h01.1]
  · unfold grrFlow at h; rw [dif_neg hk] at h; cases h

/-- **C33.** The relative velocities after the blended response are the blend of those after the two responses, and every conserved quantity is
conserved. -/
theorem C33_velocity {M Minv : Matrix ι ι ℝ} (hM : MassMatrix M Minv) (N : Matrix ι (Fin k) ℝ) (nrel : Fin k → ℝ) (v0 : ι → ℝ)
    (elastic inelastic : (Fin k → ℝ) → (Fin k → ℝ) → Outcome (Fin k → ℝ)) (hk : 0 < k) (c : ℝ) (h0 : c ≠ 0) (h1 : c ≠ 1)
    (a0 a1 alpha0 : Fin k → ℝ) (hi : inelastic 0 0 = .ok a0) (he : elastic 1 0 = .ok a1) :
    ∃ alpha, grrFlow elastic inelastic (fun _ => c) alpha0 = .ok alpha ∧
      (∀ i, (Nᵀ *ᵥ afterImpulses Minv N v0 alpha + nrel) i =
        (1 - c) * (Nᵀ *ᵥ afterImpulses Minv N v0 a0 + nrel) i + c * (Nᵀ *ᵥ afterImpulses Minv N v0 a1 + nrel) i) ∧
      ∀ w, Nᵀ *ᵥ w = 0 → w ⬝ᵥ (M *ᵥ afterImpulses Minv N v0 alpha) = w ⬝ᵥ (M *ᵥ v0) := by
  refine ⟨fun i => (1 - c) * a0 i + c * a1 i, ?_, fun i => ?_, fun w hw => C31_momentum N hM w v0 hw _⟩
  · rw [C33_blend elastic inelastic hk, if_neg h0, if_neg h1, hi, he]; rfl
  · have : (fun i => (1 - c) * a0 i + c * a1 i) = (1 - c) • a0 + c • a1 := rfl
    rw [this]
    simp only [afterImpulses, mulVec_add, mulVec_smul, Pi.add_apply, Pi.smul_apply, smul_eq_mul]
    ring

/-- **C33.** With different restitutions the operator stops the program. -/
theorem C33_exit (elastic inelastic : (Fin k → ℝ) → (Fin k → ℝ) → Outcome (Fin k → ℝ)) (CoR alpha : Fin k → ℝ) (i j : Fin k) (h : CoR i ≠ CoR j) :
    grrFlow elastic inelastic CoR alpha = .exit := by
  have hk : 0 < k := i.pos
  unfold grrFlow
  rw [dif_pos hk, if_pos]
  by_contra hall
  push Not at hall
  exact h ((hall i).trans (hall j).symm)

/-- **C33.** The combination the program is meant to be used with: an exact linear complementarity solve as inelastic and generalized reflections as elastic
response. Without moving obstacles every response is admissible, if the reflections stop. -/
theorem C33_lcp_gr {M Minv : Matrix ι ι ℝ} (hM : MassMatrix M Minv) (N : Matrix ι (Fin k) ℝ) (tol : ℝ) (ht : 0 ≤ tol) (v0 : ι → ℝ) (solve : LcpSolver)
    (hs0 : ∀ a0, solve.SolvesAt (Nᵀ * Minv * N) (lcpLinearTerm N 0 0 v0 v0) a0) (hs1 : solve.ExactOn Minv N 0 1) (fuel : Nat)
    (CoR : Fin k → ℝ) (hCoR : ∀ i, 0 ≤ CoR i ∧ CoR i ≤ 1) (alpha0 alpha : Fin k → ℝ)
    (h : grrFlow (fun CoR _ => (grFlow solve tol Minv N 0 CoR v0 fuel).bind fun r => if r.2 then .ok r.1 else .exit)
      (fun CoR a => .ok (lcpFlow solve N (Nᵀ * Minv * N) 0 CoR v0 v0 a)) CoR alpha0 = .ok alpha) :
    Admissible M Minv N 0 tol v0 alpha := by
  refine C33_admissible hM N 0 tol v0 _ _ (fun a0 a ha => ?_) (fun a0 a ha => ?_) CoR hCoR alpha0 alpha h
  · cases ha
    have hf := C31_feasible_partial N 0 solve 0 a0 (fun _ => le_refl _) v0 (hs0 a0)
    refine ⟨fun c => (hf c).1, fun c => ?_, ?_⟩
    · have := (hf c).2.1
      simp only [Pi.zero_apply, neg_zero, zero_mul] at this
      linarith
    · exact (C31_energy hM N 0 solve 0 (le_refl _) a0 v0 (hs0 a0)).2.1 rfl zero_le_one
  · obtain ⟨⟨b, fin⟩, h1, h2⟩ := Outcome.bind_eq_ok.mp ha
    cases fin with
    | false => simp at h2
    | true =>
      simp only [if_true, Outcome.ok.injEq] at h2
      subst h2
      refine ⟨C32_push N 0 solve 1 hs1 tol v0 fuel b true h1, C32_feasible N 0 solve 1 tol v0 fuel b h1, ?_⟩
      exact (C32_energy_conserved hM N 0 solve 1 hs1 tol v0 rfl (fun _ => rfl) fuel b true h1).le

/-- the row of three balls meets the hypotheses of `C33_lcp_gr` -/
example : ∃ fuel alpha, (∀ a0, choiceSolver.SolvesAt (rowNᵀ * (1 : Matrix (Fin 3) (Fin 3) ℝ) * rowN) (lcpLinearTerm rowN 0 0 ![1, 0, -1] ![1, 0, -1]) a0) ∧
    choiceSolver.ExactOn 1 rowN 0 1 ∧
    grrFlow (fun CoR _ => (grFlow choiceSolver (1 / 100) 1 rowN 0 CoR ![1, 0, -1] fuel).bind fun r => if r.2 then .ok r.1 else .exit)
      (fun CoR a => .ok (lcpFlow choiceSolver rowN (rowNᵀ * (1 : Matrix (Fin 3) (Fin 3) ℝ) * rowN) 0 CoR ![1, 0, -1] ![1, 0, -1] a)) (fun _ => 1 / 2) 0 = .ok alpha := by
  have hw : ∀ i, 0 < (rowNᵀ *ᵥ ![0, 1, 2]) i := fun c => by
    fin_cases c <;> norm_num [rowN_transpose_mulVec]
  have hs := choiceSolver_exactOn one_massMatrix rowN 0 1 _ hw
  obtain ⟨fuel, a, h⟩ := C32_terminates one_massMatrix rowN 0 choiceSolver 1 hs (1 / 100) ![1, 0, -1] (by norm_num) (by norm_num) (by norm_num) _ hw
  refine ⟨fuel, fun i => (1 - 1 / 2) * lcpFlow choiceSolver rowN (rowNᵀ * (1 : Matrix (Fin 3) (Fin 3) ℝ) * rowN) 0 0 ![1, 0, -1] ![1, 0, -1] 0 i + 1 / 2 * a i,
    fun a0 => choiceSolver_solves _ _ _ (C31_solvable rowN one_massMatrix _ hw _), hs, ?_⟩
  rw [C33_blend _ _ (by norm_num), if_neg (by norm_num), if_neg (by norm_num)]
  simp only [Outcome.bind]
  have : (1 : Fin 2 → ℝ) = fun _ => 1 := rfl
  rw [this, h]
  rfl

end Scisim
