import Verif.Spec.Solvers
import Mathlib.Algebra.BigOperators.Fin
import Mathlib.Algebra.Order.BigOperators.Ring.Finset
import Mathlib.Algebra.Order.Archimedean.Basic
import Mathlib.Tactic.Ring
import Mathlib.Tactic.Linarith
import Mathlib.Tactic.Positivity
import Mathlib.Tactic.FieldSimp
import Mathlib.Tactic.NormNum
import Mathlib.Tactic.Conv
/-! Helper lemmas about the projected gradient solver. -/

namespace Scisim
open FloatOps

namespace XR

theorem zero_def : (0 : XR) = fin 0 := rfl
theorem one_def : (1 : XR) = fin 1 := rfl
@[simp] theorem fin_add (a b : ℝ) : (fin a + fin b : XR) = fin (a + b) := rfl
@[simp] theorem fin_sub (a b : ℝ) : (fin a - fin b : XR) = fin (a - b) := by
  show add (fin a) (neg (fin b)) = _
  simp [neg, add, sub_eq_add_neg]
@[simp] theorem fin_mul (a b : ℝ) : (fin a * fin b : XR) = fin (a * b) := rfl
theorem fin_div {b : ℝ} (a : ℝ) (h : b ≠ 0) : (fin a / fin b : XR) = fin (a / b) := by
  show div (fin a) (fin b) = _
  simp [div, h]
@[simp] theorem fin_lt (a b : ℝ) : ((fin a : XR) < fin b) ↔ a < b := Iff.rfl
@[simp] theorem fin_le (a b : ℝ) : ((fin a : XR) ≤ fin b) ↔ a ≤ b := Iff.rfl
@[simp] theorem fin_lt_zero (a : ℝ) : ((fin a : XR) < 0) ↔ a < 0 := Iff.rfl
@[simp] theorem zero_lt_fin (a : ℝ) : ((0 : XR) < fin a) ↔ 0 < a := Iff.rfl
theorem fin_sqrt {a : ℝ} (h : 0 ≤ a) : (FloatOps.sqrt (fin a) : XR) = fin (Real.sqrt a) := by
  show XR.sqrt (fin a) = _
  simp [XR.sqrt, not_lt.mpr h]
@[simp] theorem fin_abs (a : ℝ) : (FloatOps.abs (fin a) : XR) = fin |a| := rfl
@[simp] theorem lit_fin (q : ℚ) : (FloatOps.lit q : XR) = fin (q : ℝ) := rfl

@[simp] theorem nan_mul (a : XR) : nan * a = nan := by cases a <;> rfl
@[simp] theorem mul_nan (a : XR) : a * nan = nan := by cases a <;> rfl
@[simp] theorem not_le_nan (a : XR) : ¬ (a ≤ nan) := by cases a <;> exact id
@[simp] theorem nan_add (a : XR) : nan + a = nan := by cases a <;> rfl
@[simp] theorem add_nan (a : XR) : a + nan = nan := by cases a <;> rfl
@[simp] theorem nan_sub (a : XR) : nan - a = nan := by cases a <;> rfl
@[simp] theorem not_nan_le (a : XR) : ¬ (nan ≤ a) := by cases a <;> exact id
@[simp] theorem not_lt_nan (a : XR) : ¬ (a < nan) := by cases a <;> exact id

theorem lt_trans {a b c : XR} (h1 : a < b) (h2 : b < c) : a < c := by
  cases a <;> cases b <;> cases c <;> first | exact trivial | exact h1.elim | exact h2.elim | exact _root_.lt_trans (α := ℝ) h1 h2

theorem lt_irrefl (a : XR) : ¬ a < a := by
  cases a
  · exact _root_.lt_irrefl (α := ℝ) _
  all_goals exact id

theorem le_of_not_lt {a b : XR} (ha : a ≠ nan) (hb : b ≠ nan) (h : ¬ a < b) : b ≤ a := by
  cases a <;> cases b <;> first | exact trivial | exact absurd rfl ha | exact absurd rfl hb | exact (h trivial).elim | exact le_of_not_gt (α := ℝ) h

theorem nan_mem_sum {l : List XR} (h : nan ∈ l) : l.sum = nan := by
  induction l with
  | nil => simp at h
  | cons a l ih =>
    rw [List.sum_cons]
    rcases List.mem_cons.mp h with h | h
    · rw [← h, nan_add]
    · rw [ih h, add_nan]

theorem sum_map_fin (l : List ℝ) : (l.map fin).sum = fin l.sum := by
  induction l with
  | nil => rfl
  | cons a l ih => rw [List.map_cons, List.sum_cons, List.sum_cons, ih, fin_add]

theorem sum_ofFn_fin {n : Nat} (f : Fin n → ℝ) : (List.ofFn fun i => fin (f i)).sum = fin (List.ofFn f).sum := by
  rw [← sum_map_fin, List.map_ofFn]; rfl

end XR

section fin
variable {n : Nat}

theorem vdot_fin (x y : Fin n → ℝ) : vdot (finVec x) (finVec y) = .fin (vdot x y) := XR.sum_ofFn_fin _
theorem mulT_fin (A : Fin n → Fin n → ℝ) (x : Fin n → ℝ) : mulT (finMat A) (finVec x) = finVec (mulT A x) := by
  funext i; exact XR.sum_ofFn_fin _
theorem vdot_self_nonneg (x : Fin n → ℝ) : 0 ≤ vdot x x := by
  unfold vdot
  rw [List.sum_ofFn]
  exact Finset.sum_nonneg fun i _ => mul_self_nonneg _
theorem vnorm_fin (x : Fin n → ℝ) : vnorm (finVec x) = .fin (vnorm x) := by
  unfold vnorm
  rw [vdot_fin, XR.fin_sqrt (vdot_self_nonneg x)]; rfl
theorem half_mat (A : Fin n → Fin n → ℝ) : (fun j k => (lit (1 / 2) : XR) * finMat A j k) = finMat (fun j k => (lit (1 / 2) : ℝ) * A j k) := rfl
theorem objective_fin (A : Fin n → Fin n → ℝ) (b x : Fin n → ℝ) : objective (finMat A) (finVec b) (finVec x) = .fin (objective A b x) := by
  unfold objective
  rw [half_mat, mulT_fin, ← vdot_fin]
  rfl
theorem qpGrad_fin (A : Fin n → Fin n → ℝ) (b x : Fin n → ℝ) : qpGrad (finMat A) (finVec b) (finVec x) = finVec (qpGrad A b x) := by
  unfold qpGrad
  rw [mulT_fin]; rfl
theorem projectNonneg_fin (x : Fin n → ℝ) : projectNonneg (finVec x) = finVec (projectNonneg x) := by
  funext i
  show projectNonneg (finVec x) i = XR.fin (projectNonneg x i)
  unfold projectNonneg
  by_cases h : x i < 0
  · rw [if_pos (show finVec x i < 0 from (XR.fin_lt_zero _).mpr h), if_pos h]; rfl
  · rw [if_neg (fun h' : finVec x i < 0 => h ((XR.fin_lt_zero _).mp h')), if_neg h]; rfl
theorem stdMin_fin (a b : ℝ) : stdMin (XR.fin a) (.fin b) = .fin (stdMin a b) := by
  unfold stdMin
  by_cases h : b < a
  · rw [if_pos ((XR.fin_lt _ _).mpr h), if_pos h]
  · rw [if_neg (fun h' => h ((XR.fin_lt _ _).mp h')), if_neg h]
theorem stdMax_fin (a b : ℝ) : stdMax (XR.fin a) (.fin b) = .fin (stdMax a b) := by
  unfold stdMax
  by_cases h : a < b
  · rw [if_pos ((XR.fin_lt _ _).mpr h), if_pos h]
  · rw [if_neg (fun h' => h ((XR.fin_lt _ _).mp h')), if_neg h]
theorem foldl_stdMax_fin (l : List ℝ) (a : ℝ) : (l.map XR.fin).foldl stdMax (.fin a) = .fin (l.foldl stdMax a) := by
  induction l generalizing a with
  | nil => rfl
  | cons c l ih => rw [List.map_cons, List.foldl_cons, List.foldl_cons, stdMax_fin, ih]
theorem minMapImpact_fin (x y : Fin n → ℝ) : minMapImpact (finVec x) (finVec y) = .fin (minMapImpact x y) := by
  unfold minMapImpact
  rw [XR.zero_def, ← foldl_stdMax_fin, List.map_ofFn]
  congr 2
  funext i
  show FloatOps.abs (stdMin (XR.fin (x i)) (XR.fin (y i))) = _
  rw [stdMin_fin, XR.fin_abs]; rfl
theorem computeNewTheta_fin (t : ℝ) : computeNewTheta (XR.fin t) = .fin (computeNewTheta t) := by
  unfold computeNewTheta
  rw [XR.zero_def]
  simp only [XR.fin_mul, XR.lit_fin, XR.fin_add, XR.fin_sub]
  rw [XR.fin_sqrt (by push_cast; nlinarith [mul_self_nonneg t])]
  rfl
theorem computeNewBeta_fin (t s : ℝ) (h : t * t + s ≠ 0) : computeNewBeta (XR.fin t) (.fin s) = .fin (computeNewBeta t s) := by
  unfold computeNewBeta
  rw [XR.one_def]
  simp only [XR.fin_mul, XR.fin_add, XR.fin_sub]
  rw [XR.fin_div _ h]
theorem gradientStep_fin (y g : Fin n → ℝ) (t : ℝ) : gradientStep (finVec y) (finVec g) (.fin t) = finVec (gradientStep y g t) := by
  unfold gradientStep
  rw [← projectNonneg_fin]
  congr 1

theorem computeNewTheta_pos {t : ℝ} (h : 0 < t) : 0 < computeNewTheta t := by
  unfold computeNewTheta
  show 0 < ((1 / 2 : ℚ) : ℝ) * ((0 - t * t) + t * Real.sqrt (t * t + ((4 : ℚ) : ℝ)))
  have h2 : t < Real.sqrt (t * t + ((4 : ℚ) : ℝ)) := by
    apply Real.lt_sqrt_of_sq_lt
    push_cast; nlinarith
  have : 0 < t * (Real.sqrt (t * t + ((4 : ℚ) : ℝ)) - t) := mul_pos h (sub_pos.mpr h2)
  push_cast at *
  nlinarith

/-- the state of the solver as finite doubles -/
def finState (s : ApgdState ℝ n) : ApgdState XR n := ⟨finVec s.x0, finVec s.y0, .fin s.theta0, .fin s.Lk, .fin s.tk⟩

theorem backtrack_fin (A : Fin n → Fin n → ℝ) (b y0 g : Fin n → ℝ) (fuel : Nat) (Lk tk : ℝ) (x1 : Fin n → ℝ) (hL : 0 < Lk) :
    backtrack (finMat A) (finVec b) (finVec y0) (finVec g) fuel (.fin Lk) (.fin tk) (finVec x1) =
      (backtrack A b y0 g fuel Lk tk x1).map fun r => (.fin r.1, .fin r.2.1, finVec r.2.2) := by
  induction fuel generalizing Lk tk x1 with
  | zero => rfl
  | succ fuel ih =>
    have hd : (fun i => finVec x1 i - finVec y0 i) = finVec (fun i => x1 i - y0 i) := by funext i; simp [finVec]
    have hcond : (objective (finMat A) (finVec b) (finVec x1) - objective (finMat A) (finVec b) (finVec y0) ≤
        vdot (finVec g) (fun i => finVec x1 i - finVec y0 i) + (lit (1 / 2) : XR) * .fin Lk * vdot (fun i => finVec x1 i - finVec y0 i) (fun i => finVec x1 i - finVec y0 i)) ↔
        (objective A b x1 - objective A b y0 ≤
        vdot g (fun i => x1 i - y0 i) + (lit (1 / 2) : ℝ) * Lk * vdot (fun i => x1 i - y0 i) (fun i => x1 i - y0 i)) := by
      rw [hd]
      simp only [objective_fin, vdot_fin, XR.lit_fin, XR.fin_mul, XR.fin_add, XR.fin_sub, XR.fin_le]
      exact Iff.rfl
    unfold backtrack
    by_cases h : (objective A b x1 - objective A b y0 ≤
        vdot g (fun i => x1 i - y0 i) + (lit (1 / 2) : ℝ) * Lk * vdot (fun i => x1 i - y0 i) (fun i => x1 i - y0 i))
    · rw [if_pos (hcond.mpr h), if_pos h]; rfl
    · rw [if_neg (fun h' => h (hcond.mp h')), if_neg h]
      have h2 : (lit 2 : XR) * .fin Lk = .fin (lit 2 * Lk) := rfl
      have h2p : (0 : ℝ) < lit 2 * Lk := by
        show (0 : ℝ) < ((2 : ℚ) : ℝ) * Lk
        push_cast; linarith
      rw [h2, XR.one_def, XR.fin_div _ (ne_of_gt h2p), gradientStep_fin]
      exact ih _ _ _ h2p

theorem backtrack_Lk_pos (A : Fin n → Fin n → ℝ) (b y0 g : Fin n → ℝ) (fuel : Nat) (Lk tk : ℝ) (x1 : Fin n → ℝ) (hL : 0 < Lk)
    (r) (h : backtrack A b y0 g fuel Lk tk x1 = some r) : 0 < r.1 := by
  induction fuel generalizing Lk tk x1 with
  | zero => simp [backtrack] at h
  | succ fuel ih =>
    unfold backtrack at h
    split at h
    · cases h; exact hL
    · refine ih _ _ _ ?_ h
      show (0 : ℝ) < ((2 : ℚ) : ℝ) * Lk
      push_cast; linarith

theorem apgdStep_pos (A : Fin n → Fin n → ℝ) (b : Fin n → ℝ) (fuel : Nat) (s : ApgdState ℝ n) (hL : 0 < s.Lk) (ht : 0 < s.theta0)
    (s' : ApgdState ℝ n) (h : apgdStep A b fuel s = some s') : 0 < s'.Lk ∧ 0 < s'.theta0 := by
  unfold apgdStep at h
  rw [Option.map_eq_some_iff] at h
  obtain ⟨r, hr, rfl⟩ := h
  have := backtrack_Lk_pos _ _ _ _ _ _ _ _ hL r hr
  constructor
  · show (0 : ℝ) < ((9 / 10 : ℚ) : ℝ) * r.1
    push_cast; linarith
  · show (0 : ℝ) < if _ then 1 else computeNewTheta s.theta0
    split
    · exact one_pos
    · exact computeNewTheta_pos ht

theorem apgdStep_fin (A : Fin n → Fin n → ℝ) (b : Fin n → ℝ) (fuel : Nat) (s : ApgdState ℝ n) (hL : 0 < s.Lk) (ht : 0 < s.theta0) :
    apgdStep (finMat A) (finVec b) fuel (finState s) = (apgdStep A b fuel s).map finState := by
  unfold apgdStep
  have e1 : (finState s).y0 = finVec s.y0 := rfl
  have e2 : (finState s).Lk = .fin s.Lk := rfl
  have e3 : (finState s).tk = .fin s.tk := rfl
  have e4 : (finState s).x0 = finVec s.x0 := rfl
  have e5 : (finState s).theta0 = .fin s.theta0 := rfl
  simp only [e1, e2, e3, e4, e5, qpGrad_fin, gradientStep_fin]
  rw [backtrack_fin _ _ _ _ _ _ _ _ hL, Option.map_map, Option.map_map]
  cases hb : backtrack A b s.y0 (qpGrad A b s.y0) fuel s.Lk s.tk (gradientStep s.y0 (qpGrad A b s.y0) s.tk) with
  | none => rfl
  | some r =>
    have hr := backtrack_Lk_pos _ _ _ _ _ _ _ _ hL r hb
    simp only [Option.map_some, Function.comp, Option.some.injEq]
    have hd : (fun i => finVec r.2.2 i - finVec s.x0 i) = finVec (fun i => r.2.2 i - s.x0 i) := by funext i; simp [finVec]
    have hth := computeNewTheta_pos ht
    have hb1 : s.theta0 * s.theta0 + computeNewTheta s.theta0 ≠ 0 := by nlinarith [mul_self_nonneg s.theta0]
    have h9 : (lit (9 / 10) : XR) * .fin r.1 = .fin (lit (9 / 10) * r.1) := rfl
    have h9p : (0 : ℝ) < lit (9 / 10) * r.1 := by
      show (0 : ℝ) < ((9 / 10 : ℚ) : ℝ) * r.1
      push_cast; linarith
    have hcond : ((0 : XR) < vdot (qpGrad (finMat A) (finVec b) (finVec s.y0)) (fun i => finVec r.2.2 i - finVec s.x0 i)) ↔
        (0 < vdot (qpGrad A b s.y0) (fun i => r.2.2 i - s.x0 i)) := by
      rw [hd, qpGrad_fin, vdot_fin, XR.zero_lt_fin]
    unfold finState
    simp only [ApgdState.mk.injEq]
    refine ⟨trivial, ?_, ?_, h9, ?_⟩
    · by_cases h : 0 < vdot (qpGrad A b s.y0) (fun i => r.2.2 i - s.x0 i)
      · rw [if_pos (hcond.mpr h), if_pos h]
      · rw [if_neg (fun h' => h (hcond.mp h')), if_neg h, computeNewTheta_fin, computeNewBeta_fin _ _ hb1]
        funext i
        simp [finVec]
    · by_cases h : 0 < vdot (qpGrad A b s.y0) (fun i => r.2.2 i - s.x0 i)
      · rw [if_pos (hcond.mpr h), if_pos h]; rfl
      · rw [if_neg (fun h' => h (hcond.mp h')), if_neg h, computeNewTheta_fin]
    · rw [h9, XR.one_def, XR.fin_div _ (ne_of_gt h9p)]

/-! ### Termination over the reals -/

theorem vdot_eq (x y : Fin n → ℝ) : vdot x y = ∑ i, x i * y i := by unfold vdot; rw [List.sum_ofFn]
theorem mulT_eq (A : Fin n → Fin n → ℝ) (x : Fin n → ℝ) (i : Fin n) : mulT A x i = ∑ j, A j i * x j := by unfold mulT; rw [List.sum_ofFn]

theorem objective_eq (A : Fin n → Fin n → ℝ) (b x : Fin n → ℝ) :
    objective A b x = 1 / 2 * (∑ i, ∑ j, x i * A j i * x j) + ∑ i, b i * x i := by
  unfold objective
  rw [vdot_eq, Finset.mul_sum, ← Finset.sum_add_distrib]
  refine Finset.sum_congr rfl fun i _ => ?_
  rw [mulT_eq, mul_add, Finset.mul_sum, Finset.mul_sum]
  congr 1
  · refine Finset.sum_congr rfl fun j _ => ?_
    show x i * (((1 / 2 : ℚ) : ℝ) * A j i * x j) = _
    push_cast; ring
  · ring

theorem objective_expand (A : Fin n → Fin n → ℝ) (hA : ∀ i j, A i j = A j i) (b y d : Fin n → ℝ) :
    objective A b (fun i => y i + d i) - objective A b y = vdot (qpGrad A b y) d + 1 / 2 * ∑ i, ∑ j, d i * A j i * d j := by
  have hsym : ∑ i, ∑ j, y i * A j i * d j = ∑ i, ∑ j, d i * A j i * y j := by
    rw [Finset.sum_comm]
    refine Finset.sum_congr rfl fun i _ => Finset.sum_congr rfl fun j _ => ?_
    rw [hA i j]; ring
  have e1 : ∑ i, ∑ j, (y i + d i) * A j i * (y j + d j) =
      ∑ i, ∑ j, y i * A j i * y j + ∑ i, ∑ j, y i * A j i * d j + ∑ i, ∑ j, d i * A j i * y j + ∑ i, ∑ j, d i * A j i * d j := by
    simp only [← Finset.sum_add_distrib]
    refine Finset.sum_congr rfl fun i _ => Finset.sum_congr rfl fun j _ => ?_
    ring
  have e2 : vdot (qpGrad A b y) d = ∑ i, ∑ j, d i * A j i * y j + ∑ i, b i * d i := by
    rw [vdot_eq, ← Finset.sum_add_distrib]
    refine Finset.sum_congr rfl fun i _ => ?_
    unfold qpGrad
    rw [mulT_eq, add_mul, Finset.sum_mul]
    congr 1
    refine Finset.sum_congr rfl fun j _ => ?_
    ring
  have e3 : ∑ i, b i * (y i + d i) = ∑ i, b i * y i + ∑ i, b i * d i := by
    rw [← Finset.sum_add_distrib]
    refine Finset.sum_congr rfl fun i _ => ?_
    ring
  rw [objective_eq, objective_eq, e1, e2, e3, hsym]
  ring

theorem quadratic_le (A : Fin n → Fin n → ℝ) (d : Fin n → ℝ) :
    ∑ i, ∑ j, d i * A j i * d j ≤ (∑ i, ∑ j, |A j i|) * vdot d d := by
  rw [Finset.sum_mul]
  refine Finset.sum_le_sum fun i _ => ?_
  rw [Finset.sum_mul]
  refine Finset.sum_le_sum fun j _ => ?_
  have hi : d i * d i ≤ vdot d d := by
    rw [vdot_eq]
    exact Finset.single_le_sum (f := fun i => d i * d i) (fun k _ => mul_self_nonneg _) (Finset.mem_univ i)
  have hj : d j * d j ≤ vdot d d := by
    rw [vdot_eq]
    exact Finset.single_le_sum (f := fun i => d i * d i) (fun k _ => mul_self_nonneg _) (Finset.mem_univ j)
  have h1 : |d i * d j| ≤ vdot d d := by
    rw [abs_le]; constructor <;> nlinarith [mul_self_nonneg (d i + d j), mul_self_nonneg (d i - d j)]
  calc d i * A j i * d j = A j i * (d i * d j) := by ring
    _ ≤ |A j i * (d i * d j)| := le_abs_self _
    _ = |A j i| * |d i * d j| := abs_mul _ _
    _ ≤ |A j i| * vdot d d := mul_le_mul_of_nonneg_left h1 (abs_nonneg _)

theorem backtrack_accepts (A : Fin n → Fin n → ℝ) (hA : ∀ i j, A i j = A j i) (b y0 x1 : Fin n → ℝ) (Lk : ℝ) (hL : ∑ i, ∑ j, |A j i| ≤ Lk) :
    objective A b x1 - objective A b y0 ≤ vdot (qpGrad A b y0) (fun i => x1 i - y0 i) +
      (lit (1 / 2) : ℝ) * Lk * vdot (fun i => x1 i - y0 i) (fun i => x1 i - y0 i) := by
  have hx : x1 = fun i => y0 i + (x1 i - y0 i) := by funext i; ring
  conv_lhs => rw [hx]
  rw [objective_expand A hA]
  have h1 := quadratic_le A (fun i => x1 i - y0 i)
  have h2 := mul_le_mul_of_nonneg_right hL (vdot_self_nonneg fun i => x1 i - y0 i)
  show _ ≤ _ + ((1 / 2 : ℚ) : ℝ) * Lk * _
  push_cast
  nlinarith

theorem backtrack_ends (A : Fin n → Fin n → ℝ) (hA : ∀ i j, A i j = A j i) (b y0 : Fin n → ℝ) (m : Nat) (Lk tk : ℝ) (x1 : Fin n → ℝ)
    (hL : ∑ i, ∑ j, |A j i| ≤ 2 ^ m * Lk) : (backtrack A b y0 (qpGrad A b y0) (m + 1) Lk tk x1).isSome := by
  induction m generalizing Lk tk x1 with
  | zero =>
    unfold backtrack
    rw [if_pos (backtrack_accepts A hA b y0 x1 Lk (by simpa using hL))]
    rfl
  | succ m ih =>
    unfold backtrack
    split
    · rfl
    · apply ih
      show _ ≤ 2 ^ m * (((2 : ℚ) : ℝ) * Lk)
      push_cast
      rw [pow_succ] at hL
      linarith

end fin

/-! ### More fuel changes nothing -/

section mono
variable {S : Type} [Zero S] [One S] [Add S] [Sub S] [Mul S] [Div S] [LT S] [LE S] [FloatOps S] {n : Nat}

theorem backtrack_mono (A : Fin n → Fin n → S) (b y0 g : Fin n → S) {f f' : Nat} (hf : f ≤ f') (Lk tk : S) (x1 : Fin n → S) (r)
    (h : backtrack A b y0 g f Lk tk x1 = some r) : backtrack A b y0 g f' Lk tk x1 = some r := by
  induction f generalizing f' Lk tk x1 with
  | zero => simp [backtrack] at h
  | succ f ih =>
    obtain ⟨f', rfl⟩ : ∃ k, f' = k + 1 := ⟨f' - 1, by omega⟩
    unfold backtrack at h ⊢
    split at h
    · next hc => rw [if_pos hc]; exact h
    · next hc => rw [if_neg hc]; exact ih (by omega) _ _ _ h

theorem apgdStep_mono (A : Fin n → Fin n → S) (b : Fin n → S) {f f' : Nat} (hf : f ≤ f') (s s' : ApgdState S n)
    (h : apgdStep A b f s = some s') : apgdStep A b f' s = some s' := by
  unfold apgdStep at h ⊢
  rw [Option.map_eq_some_iff] at h ⊢
  obtain ⟨r, hr, hr'⟩ := h
  exact ⟨r, backtrack_mono A b _ _ hf _ _ _ r hr, hr'⟩

theorem apgdLoop_mono (A : Fin n → Fin n → S) (b : Fin n → S) (tol : S) {f f' : Nat} (hf : f ≤ f') (rem it : Nat) (s : ApgdState S n) (best) (r)
    (h : apgdLoop A b tol f rem it s best = some r) : apgdLoop A b tol f' rem it s best = some r := by
  induction rem generalizing it s best with
  | zero => exact h
  | succ rem ih =>
    unfold apgdLoop at h ⊢
    split at h
    · next hc => rw [if_pos hc]; exact h
    · next hc =>
      rw [if_neg hc]
      rw [Option.bind_eq_some_iff] at h ⊢
      obtain ⟨s', hs, h⟩ := h
      exact ⟨s', apgdStep_mono A b hf _ _ hs, ih _ _ _ h⟩

theorem apgdLoop_num (A : Fin n → Fin n → S) (b : Fin n → S) (tol : S) (f : Nat) (rem it : Nat) (s : ApgdState S n) (best) (r)
    (h : apgdLoop A b tol f rem it s best = some r) : r.numIterations ≤ it + rem := by
  induction rem generalizing it s best with
  | zero => cases h; simp
  | succ rem ih =>
    unfold apgdLoop at h
    split at h
    · cases h; simp
    · rw [Option.bind_eq_some_iff] at h
      obtain ⟨s', hs, h⟩ := h
      have := ih _ _ _ h
      omega

end mono

theorem apgdLoop_ends {n : Nat} (A : Fin n → Fin n → ℝ) (hA : ∀ i j, A i j = A j i) (b : Fin n → ℝ) (tol : XR) (rem it : Nat)
    (s : ApgdState ℝ n) (hL : 0 < s.Lk) (ht : 0 < s.theta0) (best) :
    ∃ f, (apgdLoop (finMat A) (finVec b) tol f rem it (finState s) best).isSome := by
  induction rem generalizing it s best with
  | zero => exact ⟨0, rfl⟩
  | succ rem ih =>
    obtain ⟨m, hm⟩ : ∃ m : ℕ, ∑ i, ∑ j, |A j i| ≤ 2 ^ m * s.Lk := by
      obtain ⟨m, hm⟩ := pow_unbounded_of_one_lt ((∑ i, ∑ j, |A j i|) / s.Lk) (one_lt_two (α := ℝ))
      exact ⟨m, by rw [← div_le_iff₀ hL]; exact hm.le⟩
    have h1 := backtrack_ends A hA b s.y0 m s.Lk s.tk (gradientStep s.y0 (qpGrad A b s.y0) s.tk) hm
    obtain ⟨s', hs'⟩ : ∃ s', apgdStep A b (m + 1) s = some s' := by
      obtain ⟨r, hr⟩ := Option.isSome_iff_exists.mp h1
      exact ⟨_, by unfold apgdStep; simp only [hr]; rfl⟩
    have hpos := apgdStep_pos A b (m + 1) s hL ht s' hs'
    have hstep : apgdStep (finMat A) (finVec b) (m + 1) (finState s) = some (finState s') := by
      rw [apgdStep_fin A b _ s hL ht, hs']; rfl
    obtain ⟨f, hf⟩ := ih (it + 1) s' hpos.1 hpos.2 (apgdRecord (finMat A) (finVec b) (finState s).x0 best)
    refine ⟨max f (m + 1), ?_⟩
    unfold apgdLoop
    split
    · rfl
    · rw [apgdStep_mono _ _ (le_max_right f (m + 1)) _ _ hstep, Option.bind_some]
      obtain ⟨r, hr⟩ := Option.isSome_iff_exists.mp hf
      rw [apgdLoop_mono _ _ _ (le_max_left f (m + 1)) _ _ _ _ _ hr]
      rfl

/-! ### What the loop keeps -/

section keep
variable {n : Nat}

theorem projectNonneg_not_neg (x : Fin n → XR) (i : Fin n) : ¬ projectNonneg x i < 0 := by
  unfold projectNonneg
  split
  · exact XR.lt_irrefl _
  · assumption

theorem objective_nan (A : Fin n → Fin n → XR) (b x : Fin n → XR) (i : Fin n) (h : x i = .nan) : objective A b x = .nan := by
  unfold objective vdot
  apply XR.nan_mem_sum
  rw [List.mem_ofFn]
  exact ⟨i, by rw [h, XR.nan_mul]⟩

theorem backtrack_feasible (A : Fin n → Fin n → XR) (b y0 g : Fin n → XR) (f : Nat) (Lk tk : XR) (x1 : Fin n → XR) (hx : ∀ i, ¬ x1 i < 0) (r)
    (h : backtrack A b y0 g f Lk tk x1 = some r) : ∀ i, ¬ r.2.2 i < 0 ∧ r.2.2 i ≠ .nan := by
  induction f generalizing Lk tk x1 with
  | zero => simp [backtrack] at h
  | succ f ih =>
    unfold backtrack at h
    split at h
    · next hc =>
      cases h
      refine fun i => ⟨hx i, fun hn => ?_⟩
      rw [objective_nan A b x1 i hn, XR.nan_sub] at hc
      exact XR.not_nan_le _ hc
    · exact ih _ _ _ (fun i => projectNonneg_not_neg _ i) h

theorem XR.nonneg_of {a : XR} (h : ¬ a < 0) (hn : a ≠ .nan) : 0 ≤ a := XR.le_of_not_lt hn (by intro h; cases h) h

theorem apgdStep_feasible (A : Fin n → Fin n → XR) (b : Fin n → XR) (f : Nat) (s s' : ApgdState XR n) (h : apgdStep A b f s = some s') :
    ∀ i, 0 ≤ s'.x0 i := by
  unfold apgdStep at h
  rw [Option.map_eq_some_iff] at h
  obtain ⟨r, hr, rfl⟩ := h
  intro i
  have := backtrack_feasible A b _ _ f _ _ _ (fun i => projectNonneg_not_neg _ i) r hr i
  exact XR.nonneg_of this.1 this.2

theorem foldl_stdMax_not_nan (l : List XR) (a : XR) (ha : a ≠ .nan) : l.foldl stdMax a ≠ .nan := by
  induction l generalizing a with
  | nil => exact ha
  | cons c l ih =>
    rw [List.foldl_cons]
    apply ih
    unfold stdMax
    split
    · next hc => intro h; rw [h] at hc; exact XR.not_lt_nan _ hc
    · exact ha

theorem apgdResidual_not_nan (A : Fin n → Fin n → XR) (b x : Fin n → XR) : apgdResidual A b x ≠ .nan :=
  foldl_stdMax_not_nan _ _ (by intro h; cases h)

theorem apgdLoop_keeps (A : Fin n → Fin n → XR) (b x : Fin n → XR) (tol : XR) (f : Nat)
    (h0 : belowInfinity (apgdResidual A b (apgdInit A x).x0)) (rem it : Nat) (s : ApgdState XR n) (best) (r) (hrem : 0 < it + rem)
    (hs : apgdIterate A b x f it = some s)
    (hbest : (it = 0 ∧ best = none) ∨ ∃ j < it, ∃ sj, apgdIterate A b x f j = some sj ∧ best = some (apgdResidual A b sj.x0, sj.x0) ∧
      ¬ apgdResidual A b sj.x0 ≤ tol ∧ ∀ k < it, ∀ sk, apgdIterate A b x f k = some sk → ¬ apgdResidual A b sk.x0 < apgdResidual A b sj.x0)
    (h : apgdLoop A b tol f rem it s best = some r) :
    ∃ K, K < it + rem ∧ (apgdIterate A b x f K).isSome ∧ ∃ j ≤ K, ∃ sj, apgdIterate A b x f j = some sj ∧
      r.best = some (apgdResidual A b sj.x0, sj.x0) ∧
      (∀ k ≤ K, ∀ sk, apgdIterate A b x f k = some sk → ¬ apgdResidual A b sk.x0 < apgdResidual A b sj.x0) ∧
      (r.success = true ↔ apgdResidual A b sj.x0 ≤ tol) ∧ (r.success = true → r.numIterations = K) ∧
      (r.success = false → r.numIterations = it + rem ∧ K + 1 = it + rem) := by
  induction rem generalizing it s best with
  | zero =>
    rcases hbest with ⟨h1, _⟩ | ⟨j, hj, sj, hsj, hb, ht, hmin⟩
    · omega
    · cases h
      obtain ⟨K, rfl⟩ : ∃ K, it = K + 1 := ⟨it - 1, by omega⟩
      refine ⟨K, by omega, ?_, j, by omega, sj, hsj, hb, fun k hk => hmin k (by omega), ?_, ?_, ?_⟩
      · change (apgdIterate A b x f K).bind _ = _ at hs
        rw [Option.bind_eq_some_iff] at hs
        obtain ⟨a, ha, _⟩ := hs
        rw [ha]; rfl
      · simpa using ht
      · simp
      · simp
  | succ rem ih =>
    -- the record after this iteration
    have hrec : ∃ j ≤ it, ∃ sj, apgdIterate A b x f j = some sj ∧ apgdRecord A b s.x0 best = some (apgdResidual A b sj.x0, sj.x0) ∧
        ∀ k ≤ it, ∀ sk, apgdIterate A b x f k = some sk → ¬ apgdResidual A b sk.x0 < apgdResidual A b sj.x0 := by
      rcases hbest with ⟨h1, hb⟩ | ⟨j, hj, sj, hsj, hb, ht, hmin⟩
      · subst h1 hb
        have e : s = apgdInit A x := (Option.some.inj hs).symm
        refine ⟨0, le_rfl, s, hs, ?_, ?_⟩
        · unfold apgdRecord
          rw [if_pos (by rw [e]; exact h0)]
        · intro k hk sk hsk
          obtain rfl : k = 0 := by omega
          rw [hs] at hsk
          cases hsk
          exact XR.lt_irrefl _
      · subst hb
        by_cases hc : apgdResidual A b s.x0 < apgdResidual A b sj.x0
        · refine ⟨it, le_rfl, s, hs, if_pos hc, fun k hk sk hsk => ?_⟩
          rcases Nat.lt_or_ge k it with hk' | hk'
          · exact fun hlt => hmin k hk' sk hsk (XR.lt_trans hlt hc)
          · obtain rfl : k = it := by omega
            rw [hs] at hsk
            cases hsk
            exact XR.lt_irrefl _
        · refine ⟨j, hj.le, sj, hsj, if_neg hc, fun k hk sk hsk => ?_⟩
          rcases Nat.lt_or_ge k it with hk' | hk'
          · exact hmin k hk' sk hsk
          · obtain rfl : k = it := by omega
            rw [hs] at hsk
            cases hsk
            exact hc
    obtain ⟨j, hj, sj, hsj, hb, hmin⟩ := hrec
    unfold apgdLoop at h
    rw [hb] at h
    by_cases hw : bestWithin tol (some (apgdResidual A b sj.x0, sj.x0))
    · rw [if_pos hw] at h
      cases h
      refine ⟨it, by omega, by rw [hs]; rfl, j, hj, sj, hsj, rfl, hmin, ?_, ?_, ?_⟩
      · exact ⟨fun _ => hw, fun _ => rfl⟩
      · simp
      · simp
    · rw [if_neg hw] at h
      rw [Option.bind_eq_some_iff] at h
      obtain ⟨s', hs', h⟩ := h
      have := ih (it + 1) s' _ (by omega) (by show (apgdIterate A b x f it).bind _ = _; rw [hs]; exact hs')
        (Or.inr ⟨j, by omega, sj, hsj, rfl, hw, fun k hk => hmin k (by omega)⟩) h
      rw [show it + 1 + rem = it + (rem + 1) by omega] at this
      exact this

end keep

end Scisim
