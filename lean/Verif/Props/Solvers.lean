import Verif.Lemmas.Solvers
import Mathlib.Tactic.FinCases
/-!
# C35, C36: the accelerated projected gradient solver

All statements are about doubles without rounding (`XR`): finite inputs, and infinities and nan wherever the code would produce them.
-/

namespace Scisim

/-- **C35.** Whenever the solver returns (`some r`), the vector it returns is one of the iterates it visited, its residual is the least among them,
every visited iterate is non-negative, the reported residual is that of the returned vector, success is reported exactly when the residual is within
tolerance, and the iteration count is right. -/
theorem C35_apgd {n : Nat} (A : Fin n → Fin n → ℝ) (b x : Fin n → ℝ) (tol : ℝ) (maxIters : Nat) (hmax : 1 ≤ maxIters) (fuel : Nat)
    (r : ApgdResult XR n) (h : apgd (finMat A) (finVec b) (.fin tol) maxIters (finVec x) fuel = some r) :
    ∃ (last : Nat) (visited : Nat → Fin n → XR),
      (∀ k ≤ last, ∃ s, apgdIterate (finMat A) (finVec b) (finVec x) fuel k = some s ∧ visited k = s.x0) ∧
      (∀ k ≤ last, ∀ i, 0 ≤ visited k i) ∧
      (∃ j ≤ last, r.best = some (apgdResidual (finMat A) (finVec b) (visited j), visited j) ∧
        (∀ k ≤ last, apgdResidual (finMat A) (finVec b) (visited j) ≤ apgdResidual (finMat A) (finVec b) (visited k)) ∧
        (r.success = true ↔ apgdResidual (finMat A) (finVec b) (visited j) ≤ .fin tol)) ∧
      (r.success = true → r.numIterations = last ∧ last < maxIters) ∧
      (r.success = false → r.numIterations = maxIters ∧ last + 1 = maxIters) := by
  have h0 : FloatOps.belowInfinity (apgdResidual (finMat A) (finVec b) (apgdInit (finMat A) (finVec x)).x0) := by
    show FloatOps.belowInfinity (apgdResidual (finMat A) (finVec b) (projectNonneg (finVec x)))
    unfold apgdResidual
    rw [projectNonneg_fin, qpGrad_fin, minMapImpact_fin]
    trivial
  obtain ⟨K, hK, hsome, j, hj, sj, hsj, hb, hmin, hsucc, h1, h2⟩ := apgdLoop_keeps (finMat A) (finVec b) (finVec x) (.fin tol) fuel h0 maxIters 0
    (apgdInit (finMat A) (finVec x)) none r (by omega) rfl (Or.inl ⟨rfl, rfl⟩) h
  have hall : ∀ k ≤ K, ∃ s, apgdIterate (finMat A) (finVec b) (finVec x) fuel k = some s := by
    intro k hk
    obtain ⟨d, rfl⟩ := Nat.exists_eq_add_of_le hk
    clear hK h1 h2 hmin hj
    induction d with
    | zero => exact Option.isSome_iff_exists.mp hsome
    | succ d ih =>
      refine ih ?_ (by omega)
      · obtain ⟨s, hs⟩ := Option.isSome_iff_exists.mp hsome
        change (apgdIterate (finMat A) (finVec b) (finVec x) fuel (k + d)).bind _ = _ at hs
        rw [Option.bind_eq_some_iff] at hs
        obtain ⟨a, ha, _⟩ := hs
        rw [ha]; rfl
  have hfeas : ∀ k s, apgdIterate (finMat A) (finVec b) (finVec x) fuel k = some s → ∀ i, 0 ≤ s.x0 i := by
    intro k s hs i
    cases k with
    | zero =>
      cases hs
      show 0 ≤ projectNonneg (finVec x) i
      rw [projectNonneg_fin]
      refine XR.nonneg_of ?_ (by intro h; cases h)
      rw [← projectNonneg_fin]
      exact projectNonneg_not_neg _ i
    | succ k =>
      change (apgdIterate (finMat A) (finVec b) (finVec x) fuel k).bind _ = _ at hs
      rw [Option.bind_eq_some_iff] at hs
      obtain ⟨a, _, ha⟩ := hs
      exact apgdStep_feasible _ _ _ _ _ ha i
  classical
  refine ⟨K, fun k => if hk : k ≤ K then (hall k hk).choose.x0 else fun _ => 0, ?_, ?_, ⟨j, hj, ?_, ?_, ?_⟩, ?_, ?_⟩
  · intro k hk
    refine ⟨(hall k hk).choose, (hall k hk).choose_spec, dif_pos hk⟩
  · intro k hk i
    simp only [dif_pos hk]
    exact hfeas k _ (hall k hk).choose_spec i
  · simp only [dif_pos hj]
    have : (hall j hj).choose = sj := Option.some.inj ((hall j hj).choose_spec.symm.trans hsj)
    rw [this]; exact hb
  · intro k hk
    simp only [dif_pos hj, dif_pos hk]
    have : (hall j hj).choose = sj := Option.some.inj ((hall j hj).choose_spec.symm.trans hsj)
    rw [this]
    exact XR.le_of_not_lt (apgdResidual_not_nan _ _ _) (apgdResidual_not_nan _ _ _) (hmin k hk _ (hall k hk).choose_spec)
  · simp only [dif_pos hj]
    have : (hall j hj).choose = sj := Option.some.inj ((hall j hj).choose_spec.symm.trans hsj)
    rw [this]; exact hsucc
  · intro hs
    exact ⟨h1 hs, by omega⟩
  · intro hs
    have := h2 hs
    omega

/-- **C36, the part that holds.** If the matrix is symmetric and does not annihilate the difference between the (projected) starting point and the
vector of ones, the solver returns: every step size search ends, and at most `maxIters` iterations are done. What is missing is the degenerate
starting point, where the solver can run for ever (`C36_false_opposed`, `C36_false_warm_start`). -/
theorem C36_terminates_partial {n : Nat} (A : Fin n → Fin n → ℝ) (hA : ∀ i j, A i j = A j i) (b x : Fin n → ℝ) (tol : ℝ) (maxIters : Nat)
    (hstart : ∃ i, ∑ j, A i j * (max (x j) 0 - 1) ≠ 0) :
    ∃ fuel r, apgd (finMat A) (finVec b) (.fin tol) maxIters (finVec x) fuel = some r ∧ r.numIterations ≤ maxIters := by
  obtain ⟨i, hi⟩ := hstart
  have hproj : ∀ j, projectNonneg x j = max (x j) 0 := by
    intro j
    unfold projectNonneg
    split
    · next h => rw [max_eq_right h.le]
    · next h => rw [max_eq_left (not_lt.mp h)]
  set g : Fin n → ℝ := fun j => projectNonneg x j - 1 with hg
  have hAg : 0 < vdot (mulT A g) (mulT A g) := by
    rw [vdot_eq]
    refine lt_of_lt_of_le ?_ (Finset.single_le_sum (f := fun i => mulT A g i * mulT A g i) (fun k _ => mul_self_nonneg _) (Finset.mem_univ i))
    apply mul_self_pos.mpr
    rw [mulT_eq]
    convert hi using 2
    next j _ => rw [hA j i, ← hproj]
  have hgpos : 0 < vdot g g := by
    rcases (vdot_self_nonneg g).lt_or_eq with h | h
    · exact h
    · exfalso
      have hz : ∀ j, g j = 0 := by
        intro j
        have := (Finset.sum_eq_zero_iff_of_nonneg (fun k _ => mul_self_nonneg (g k))).mp ((vdot_eq g g).symm.trans h.symm) j (Finset.mem_univ j)
        exact mul_self_eq_zero.mp this
      apply hi
      apply Finset.sum_eq_zero
      intro j _
      have := hz j
      rw [hg] at this
      simp only [hproj] at this
      rw [this, mul_zero]
  have hLpos : 0 < vnorm (mulT A g) / vnorm g := div_pos (Real.sqrt_pos.mpr hAg) (Real.sqrt_pos.mpr hgpos)
  have hgx : (fun i => projectNonneg (finVec x) i - (1 : XR)) = finVec g := by
    rw [projectNonneg_fin, XR.one_def]
    funext j
    exact XR.fin_sub _ _
  have hinit : apgdInit (finMat A) (finVec x) = finState (apgdInit A x) := by
    unfold apgdInit
    have hn : vnorm (finVec g) = XR.fin (vnorm g) := vnorm_fin g
    simp only [hgx, mulT_fin, vnorm_fin]
    rw [XR.fin_div _ (ne_of_gt (show 0 < vnorm g from Real.sqrt_pos.mpr hgpos)), XR.one_def, XR.fin_div _ (ne_of_gt hLpos), projectNonneg_fin]
    rfl
  obtain ⟨f, hf⟩ := apgdLoop_ends A hA b (.fin tol) maxIters 0 (apgdInit A x) hLpos (by show (0 : ℝ) < 1; exact one_pos) none
  obtain ⟨r, hr⟩ := Option.isSome_iff_exists.mp hf
  refine ⟨f, r, ?_, ?_⟩
  · unfold apgd
    rw [hinit]
    exact hr
  · have := apgdLoop_num _ _ _ _ _ _ _ _ _ hr
    omega

/-- a search that starts with a step size estimate of nan never ends -/
theorem backtrack_nan {n : Nat} (A : Fin n → Fin n → XR) (b y0 g : Fin n → XR) (fuel : Nat) (tk : XR) (x1 : Fin n → XR) :
    backtrack A b y0 g fuel .nan tk x1 = none := by
  induction fuel generalizing tk x1 with
  | zero => rfl
  | succ fuel ih =>
    unfold backtrack
    rw [XR.mul_nan, XR.nan_mul, XR.add_nan, if_neg (XR.not_le_nan _), XR.mul_nan]
    exact ih _ _

/-- an iteration is started and its step size search does not end: the solver never returns -/
theorem apgd_stuck {n : Nat} (A : Fin n → Fin n → ℝ) (b x : Fin n → ℝ) (tol : ℝ) (maxIters : Nat) (hmax : 1 ≤ maxIters)
    (hres : tol < minMapImpact (projectNonneg x) (qpGrad A b (projectNonneg x))) (fuel : Nat)
    (hstep : apgdStep (finMat A) (finVec b) fuel (apgdInit (finMat A) (finVec x)) = none) :
    apgd (finMat A) (finVec b) (.fin tol) maxIters (finVec x) fuel = none := by
  obtain ⟨m, rfl⟩ : ∃ m, maxIters = m + 1 := ⟨maxIters - 1, by omega⟩
  have hr : apgdResidual (finMat A) (finVec b) (apgdInit (finMat A) (finVec x)).x0 =
      .fin (minMapImpact (projectNonneg x) (qpGrad A b (projectNonneg x))) := by
    show apgdResidual (finMat A) (finVec b) (projectNonneg (finVec x)) = _
    unfold apgdResidual
    rw [projectNonneg_fin, qpGrad_fin, minMapImpact_fin]
  unfold apgd apgdLoop
  have hrec : apgdRecord (finMat A) (finVec b) (apgdInit (finMat A) (finVec x)).x0 none =
      some (apgdResidual (finMat A) (finVec b) (apgdInit (finMat A) (finVec x)).x0, (apgdInit (finMat A) (finVec x)).x0) :=
    if_pos (by rw [hr]; trivial)
  rw [hrec, if_neg, hstep]
  · rfl
  · show ¬ (_ ≤ _)
    rw [hr]
    exact not_le.mpr hres

/-- **C36 is false.** A solve that is warm started with all impulses equal to one never returns, unless the starting point is already within
tolerance: the step size estimate is 0/0. -/
theorem C36_false_warm_start {n : Nat} (A : Fin n → Fin n → ℝ) (b : Fin n → ℝ) (tol : ℝ) (maxIters : Nat) (hmax : 1 ≤ maxIters)
    (hres : tol < minMapImpact (fun _ => 1) (qpGrad A b fun _ => 1)) (fuel : Nat) :
    apgd (finMat A) (finVec b) (.fin tol) maxIters (finVec fun _ => 1) fuel = none := by
  have hp : projectNonneg (fun _ : Fin n => (1 : ℝ)) = fun _ => 1 := by
    funext i
    unfold projectNonneg
    rw [if_neg (by norm_num)]
  apply apgd_stuck A b _ tol maxIters hmax
  · rw [hp]; exact hres
  · have hL : (apgdInit (finMat A) (finVec fun _ => 1)).Lk = .nan := by
      show vnorm (mulT (finMat A) fun i => projectNonneg (finVec fun _ => 1) i - 1) / vnorm (fun i => projectNonneg (finVec fun _ => 1) i - 1) = _
      have h0 : (fun i => projectNonneg (finVec fun _ : Fin n => (1 : ℝ)) i - (1 : XR)) = finVec fun _ => 0 := by
        rw [projectNonneg_fin, hp, XR.one_def]
        funext i
        show XR.fin 1 - XR.fin 1 = XR.fin 0
        rw [XR.fin_sub, sub_self]
      rw [h0, mulT_fin, vnorm_fin, vnorm_fin]
      have hz : mulT A (fun _ => 0) = fun _ => 0 := by
        funext i
        rw [mulT_eq]
        simp
      have hn : vnorm (fun _ : Fin n => (0 : ℝ)) = 0 := by
        unfold vnorm
        rw [vdot_eq]
        simp [FloatOps.sqrt]
      rw [hz, hn]
      show XR.div (.fin 0) (.fin 0) = _
      simp [XR.div, XR.infMul]
    unfold apgdStep
    rw [hL]
    simp only [backtrack_nan, Option.map_none]

/-- the contact matrix of a ball of mass one between two opposite walls -/
def opposedA : Fin 2 → Fin 2 → ℝ := ![![1, -1], ![-1, 1]]
/-- the ball moves towards the first wall with speed one -/
def opposedB : Fin 2 → ℝ := ![-1, 1]

theorem sum2 (f : Fin 2 → XR) : (List.ofFn f).sum = f 0 + (f 1 + 0) := by
  rw [List.ofFn_succ, List.ofFn_succ, List.ofFn_zero]; rfl

/-- **C36 is false.** A ball touches two opposite walls and moves towards one of them; the matrix is positive semidefinite and the solver is started
from zero. It never returns, whatever the iteration limit: the vector of ones is in the kernel of the matrix, so that the estimate of the step size
is infinite and stays so. -/
theorem C36_false_opposed (tol : ℝ) (htol : tol < 1) (maxIters : Nat) (hmax : 1 ≤ maxIters) (fuel : Nat) :
    (∀ u : Fin 2 → ℝ, 0 ≤ ∑ i, ∑ j, u i * opposedA i j * u j) ∧
    apgd (finMat opposedA) (finVec opposedB) (.fin tol) maxIters (finVec fun _ => 0) fuel = none := by
  constructor
  · intro u
    simp only [Fin.sum_univ_two, opposedA, Matrix.cons_val_zero, Matrix.cons_val_one]
    nlinarith [mul_self_nonneg (u 0 - u 1)]
  have hp : projectNonneg (fun _ : Fin 2 => (0 : ℝ)) = fun _ => 0 := by
    funext i
    unfold projectNonneg
    rw [if_neg (by norm_num)]
  have hg0 : qpGrad opposedA opposedB (fun _ => 0) = opposedB := by
    funext i
    unfold qpGrad
    rw [mulT_eq]
    simp
  apply apgd_stuck opposedA opposedB _ tol maxIters hmax
  · rw [hp, hg0]
    refine lt_of_lt_of_eq htol ?_
    unfold minMapImpact
    rw [List.ofFn_succ, List.ofFn_succ, List.ofFn_zero]
    norm_num [stdMin, stdMax, opposedB, FloatOps.abs]
  · have hi0 : (fun i => projectNonneg (finVec fun _ : Fin 2 => (0 : ℝ)) i - (1 : XR)) = finVec fun _ => -1 := by
      rw [projectNonneg_fin, hp, XR.one_def]
      funext i
      show XR.fin 0 - XR.fin 1 = XR.fin (-1)
      rw [XR.fin_sub, zero_sub]
    have hL : (apgdInit (finMat opposedA) (finVec fun _ => 0)).Lk = .fin 0 := by
      show vnorm (mulT (finMat opposedA) fun i => projectNonneg (finVec fun _ => 0) i - 1) / vnorm (fun i => projectNonneg (finVec fun _ => 0) i - 1) = _
      rw [hi0, mulT_fin, vnorm_fin, vnorm_fin]
      have hz : mulT opposedA (fun _ => -1) = fun _ => 0 := by
        funext i
        rw [mulT_eq, Fin.sum_univ_two]
        fin_cases i <;> simp [opposedA]
      have hn : vnorm (fun _ : Fin 2 => (0 : ℝ)) = 0 := by
        unfold vnorm
        rw [vdot_eq]
        simp [FloatOps.sqrt]
      have h1 : vnorm (fun _ : Fin 2 => (-1 : ℝ)) ≠ 0 := by
        unfold vnorm
        rw [vdot_eq, Fin.sum_univ_two]
        show Real.sqrt _ ≠ 0
        rw [Real.sqrt_ne_zero'] ; norm_num
      rw [hz, hn, XR.fin_div _ h1, zero_div]
    have htk : (1 : XR) / .fin 0 = .pinf := by
      show XR.div (.fin 1) (.fin 0) = _
      simp [XR.div, XR.infMul]
    have hy : (apgdInit (finMat opposedA) (finVec fun _ : Fin 2 => 0)).y0 = finVec fun _ => 0 := by
      show projectNonneg _ = _
      rw [projectNonneg_fin, hp]
    have ht : (apgdInit (finMat opposedA) (finVec fun _ => 0)).tk = .pinf := by
      show 1 / (apgdInit (finMat opposedA) (finVec fun _ => 0)).Lk = _
      rw [hL, htk]
    have hX : gradientStep (finVec fun _ : Fin 2 => (0 : ℝ)) (finVec opposedB) .pinf = ![XR.pinf, .fin 0] := by
      funext i
      unfold gradientStep projectNonneg
      fin_cases i
      · have : finVec (fun _ : Fin 2 => (0 : ℝ)) 0 - .pinf * finVec opposedB 0 = XR.pinf := by
          show XR.add (.fin 0) (XR.neg (XR.mul .pinf (.fin (-1)))) = _
          norm_num [XR.mul, XR.infMul, XR.neg, XR.add]
        rw [if_neg]
        · exact this
        · exact fun h => (congrArg (· < (0 : XR)) this).mp h
      · have : finVec (fun _ : Fin 2 => (0 : ℝ)) 1 - .pinf * finVec opposedB 1 = XR.ninf := by
          show XR.add (.fin 0) (XR.neg (XR.mul .pinf (.fin 1))) = _
          norm_num [XR.mul, XR.infMul, XR.neg, XR.add]
        rw [if_pos]
        · rfl
        · exact (congrArg (· < (0 : XR)) this).mpr trivial
    have hobj : objective (finMat opposedA) (finVec opposedB) ![XR.pinf, .fin 0] = .nan := by
      unfold objective vdot
      rw [sum2]
      have h1 : mulT (fun j k => FloatOps.lit (1 / 2) * finMat opposedA j k) ![XR.pinf, .fin 0] 1 = .ninf := by
        unfold mulT
        rw [sum2]
        show XR.add (XR.mul (.fin (((1 / 2 : ℚ) : ℝ) * (-1))) .pinf) (XR.add (XR.mul (.fin (((1 / 2 : ℚ) : ℝ) * 1)) (.fin 0)) (.fin 0)) = _
        norm_num [XR.mul, XR.infMul, XR.add, XR.neg]
      have h2 : (![XR.pinf, XR.fin 0] : Fin 2 → XR) 1 * (mulT (fun j k => FloatOps.lit (1 / 2) * finMat opposedA j k) ![XR.pinf, .fin 0] 1 + finVec opposedB 1) = .nan := by
        rw [h1]
        show XR.mul (.fin 0) (XR.add .ninf (.fin 1)) = _
        norm_num [XR.mul, XR.infMul, XR.add, XR.neg]
      rw [h2, XR.nan_add, XR.add_nan]
    have hback : ∀ f tk, backtrack (finMat opposedA) (finVec opposedB) (finVec fun _ => 0) (finVec opposedB) f (.fin 0) tk ![XR.pinf, .fin 0] = none := by
      intro f
      induction f with
      | zero => intro tk; rfl
      | succ f ih =>
        intro tk
        have h2 : (FloatOps.lit 2 : XR) * .fin 0 = .fin 0 := by
          show XR.fin (((2 : ℚ) : ℝ) * 0) = _
          rw [mul_zero]
        unfold backtrack
        rw [hobj, XR.nan_sub, if_neg (XR.not_nan_le _), h2, htk, hX]
        exact ih _
    unfold apgdStep
    rw [hL, hy, ht]
    simp only [qpGrad_fin, hg0, hX, hback, Option.map_none]

/-- `C35_apgd` and `C36_terminates_partial` are not vacuous: one contact, one unit of mass, unit approach speed -/
example : ∃ fuel r, apgd (finMat fun _ _ : Fin 1 => (1 : ℝ)) (finVec fun _ => -1) (.fin 0) 10 (finVec fun _ => 0) fuel = some r :=
  let ⟨f, r, h, _⟩ := C36_terminates_partial (fun _ _ : Fin 1 => (1 : ℝ)) (fun _ _ => rfl) (fun _ => -1) (fun _ => 0) 0 10 ⟨0, by norm_num⟩
  ⟨f, r, h⟩

/-- `C36_false_warm_start` is not vacuous: one contact whose previous impulse was one and whose present solution is two -/
example : (1 / 2 : ℝ) < minMapImpact (fun _ : Fin 1 => (1 : ℝ)) (qpGrad (fun _ _ => 1) (fun _ => -2) fun _ => 1) := by
  unfold minMapImpact qpGrad mulT
  rw [List.ofFn_succ, List.ofFn_zero]
  simp only [List.ofFn_succ, List.ofFn_zero]
  simp [stdMin, stdMax, FloatOps.abs]
  norm_num

end Scisim
