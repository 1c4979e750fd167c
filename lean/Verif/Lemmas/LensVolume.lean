import Mathlib.Analysis.InnerProductSpace.Projection.Reflection
import Mathlib.Analysis.Normed.Module.Ball.Pointwise
import Mathlib.Analysis.SpecialFunctions.Integrals.Basic
import Mathlib.MeasureTheory.Measure.Lebesgue.VolumeOfBalls
import Mathlib.Tactic.FieldSimp
import Mathlib.Tactic.LinearCombination
/-!
# The volume of the intersection of two balls
-/

namespace Scisim

open MeasureTheory Metric

/-- The area of a disc, given by the square of its radius -/
theorem volume_disc (m : ℝ) : volume {w : Fin 2 → ℝ | w 0 ^ 2 + w 1 ^ 2 ≤ m} = ENNReal.ofReal (Real.pi * m) := by
  rcases lt_or_ge m 0 with hm | hm
  · have : {w : Fin 2 → ℝ | w 0 ^ 2 + w 1 ^ 2 ≤ m} = ∅ := by
      rw [Set.eq_empty_iff_forall_notMem]
      intro w hw
      simp only [Set.mem_ofPred_eq] at hw
      nlinarith [sq_nonneg (w 0), sq_nonneg (w 1)]
    rw [this, measure_empty, eq_comm, ENNReal.ofReal_eq_zero]
    exact mul_nonpos_of_nonneg_of_nonpos Real.pi_pos.le hm.le
  · have hv := EuclideanSpace.volume_closedBall_fin_two 0 (√m)
    have hset : closedBall (0 : EuclideanSpace ℝ (Fin 2)) (√m) = (WithLp.ofLp) ⁻¹' {w : Fin 2 → ℝ | w 0 ^ 2 + w 1 ^ 2 ≤ m} := by
      ext w
      rw [mem_closedBall_zero_iff, EuclideanSpace.norm_eq, Real.sqrt_le_sqrt_iff hm]
      simp [Fin.sum_univ_two]
    rw [hset, (PiLp.volume_preserving_ofLp (Fin 2)).measure_preimage] at hv
    · rw [hv, ENNReal.ofReal_mul Real.pi_pos.le, mul_comm, ← ENNReal.ofReal_pow (Real.sqrt_nonneg _), Real.sq_sqrt hm]
    · exact (measurableSet_le (by fun_prop) (by fun_prop)).nullMeasurableSet

/-- Volume by slices -/
theorem volume_slices (m : ℝ → ℝ) (hm : Measurable m) :
    volume {z : Fin 3 → ℝ | z 1 ^ 2 + z 2 ^ 2 ≤ m (z 0)} = ∫⁻ a, ENNReal.ofReal (Real.pi * m a) := by
  have hp := volume_preserving_piFinSuccAbove (fun _ : Fin 3 => ℝ) 0
  have hS : MeasurableSet {p : ℝ × (Fin 2 → ℝ) | p.2 0 ^ 2 + p.2 1 ^ 2 ≤ m p.1} := measurableSet_le (by fun_prop) (by fun_prop)
  have h1 : {z : Fin 3 → ℝ | z 1 ^ 2 + z 2 ^ 2 ≤ m (z 0)} =
      (MeasurableEquiv.piFinSuccAbove (fun _ : Fin 3 => ℝ) 0) ⁻¹' {p : ℝ × (Fin 2 → ℝ) | p.2 0 ^ 2 + p.2 1 ^ 2 ≤ m p.1} := by
    ext z
    simp [MeasurableEquiv.piFinSuccAbove]
    rfl
  rw [h1, hp.measure_preimage hS.nullMeasurableSet, Measure.volume_eq_prod, Measure.prod_apply hS]
  refine lintegral_congr fun a => ?_
  rw [← volume_disc]
  rfl

/-- The integral of a function that is not positive outside an interval -/
theorem lintegral_interval (g : ℝ → ℝ) (hg : Continuous g) {u v : ℝ} (huv : u ≤ v) (hin : ∀ a, u ≤ a → a ≤ v → 0 ≤ g a)
    (hout : ∀ a, a < u ∨ v < a → g a ≤ 0) : ∫⁻ a, ENNReal.ofReal (g a) = ENNReal.ofReal (∫ a in u..v, g a) := by
  rw [intervalIntegral.integral_of_le huv, ← integral_Icc_eq_integral_Ioc,
    ofReal_integral_eq_lintegral_ofReal (hg.integrableOn_Icc) ?_, ← lintegral_indicator measurableSet_Icc]
  · refine lintegral_congr fun a => ?_
    by_cases ha : a ∈ Set.Icc u v
    · rw [Set.indicator_of_mem ha]
    · rw [Set.indicator_of_notMem ha, ENNReal.ofReal_eq_zero]
      apply hout
      rw [Set.mem_Icc, not_and_or, not_le, not_le] at ha
      exact ha
  · filter_upwards [ae_restrict_mem measurableSet_Icc] with a ha
    exact hin a ha.1 ha.2

/-- The volume of the intersection of two balls whose centres are on the first axis -/
theorem volume_lens_axis {r t d : ℝ} (hr : 0 < r) (ht : 0 < t) (hd : 0 < d) (h1 : d ≤ r + t) (h2 : r ≤ d + t) (h3 : t ≤ d + r) :
    volume {z : Fin 3 → ℝ | z 0 ^ 2 + z 1 ^ 2 + z 2 ^ 2 ≤ r ^ 2 ∧ (z 0 - d) ^ 2 + z 1 ^ 2 + z 2 ^ 2 ≤ t ^ 2} =
      ENNReal.ofReal (Real.pi * (t + r - d) * (t + r - d) * (d * d + 2 * d * r - 3 * r * r + 2 * d * t + 6 * r * t - 3 * t * t) / (12 * d)) := by
  set m : ℝ → ℝ := fun a => min (r ^ 2 - a ^ 2) (t ^ 2 - (a - d) ^ 2) with hm
  have hset : {z : Fin 3 → ℝ | z 0 ^ 2 + z 1 ^ 2 + z 2 ^ 2 ≤ r ^ 2 ∧ (z 0 - d) ^ 2 + z 1 ^ 2 + z 2 ^ 2 ≤ t ^ 2} =
      {z : Fin 3 → ℝ | z 1 ^ 2 + z 2 ^ 2 ≤ m (z 0)} := by
    ext z
    simp only [Set.mem_ofPred_eq, hm, le_min_iff]
    constructor <;> rintro ⟨h, h'⟩ <;> constructor <;> linarith
  have hcont : Continuous m := by fun_prop
  rw [hset, volume_slices m hcont.measurable]
  set c := (d ^ 2 + r ^ 2 - t ^ 2) / (2 * d) with hc
  have hc2 : 2 * d * c = d ^ 2 + r ^ 2 - t ^ 2 := by
    rw [hc]
    field_simp
  have hlo : d - t ≤ c := by
    rw [hc, le_div_iff₀ (by linarith)]
    nlinarith
  have hhi : c ≤ r := by
    rw [hc, div_le_iff₀ (by linarith)]
    nlinarith
  have hleft : ∀ a, a ≤ c → m a = t ^ 2 - (a - d) ^ 2 := by
    intro a ha
    apply min_eq_right
    nlinarith
  have hright : ∀ a, c ≤ a → m a = r ^ 2 - a ^ 2 := by
    intro a ha
    apply min_eq_left
    nlinarith
  rw [lintegral_interval (fun a => Real.pi * m a) (by fun_prop) (hlo.trans hhi)]
  · congr 1
    rw [intervalIntegral.integral_const_mul, ← intervalIntegral.integral_add_adjacent_intervals (b := c) (hcont.intervalIntegrable _ _)
      (hcont.intervalIntegrable _ _)]
    rw [show (∫ a in (d - t)..c, m a) = ∫ a in (d - t)..c, (t ^ 2 - (a - d) ^ 2) from by
      apply intervalIntegral.integral_congr
      intro a ha
      rw [Set.uIcc_of_le hlo] at ha
      exact hleft a ha.2]
    rw [show (∫ a in c..r, m a) = ∫ a in c..r, (r ^ 2 - a ^ 2) from by
      apply intervalIntegral.integral_congr
      intro a ha
      rw [Set.uIcc_of_le hhi] at ha
      exact hright a ha.1]
    have i1 : (∫ a in (d - t)..c, (t ^ 2 - (a - d) ^ 2)) = (t ^ 2 * c - (c - d) ^ 3 / 3) - (t ^ 2 * (d - t) - (d - t - d) ^ 3 / 3) := by
      apply intervalIntegral.integral_eq_sub_of_hasDerivAt (f := fun a => t ^ 2 * a - (a - d) ^ 3 / 3)
      · intro a _
        have := ((hasDerivAt_id a).const_mul (t ^ 2)).sub ((((hasDerivAt_id a).sub_const d).pow 3).div_const 3)
        refine HasDerivAt.congr_deriv this ?_
        simp only [id]
        push_cast
        ring
      · exact (by fun_prop : Continuous fun a : ℝ => t ^ 2 - (a - d) ^ 2).intervalIntegrable _ _
    have i2 : (∫ a in c..r, (r ^ 2 - a ^ 2)) = (r ^ 2 * r - r ^ 3 / 3) - (r ^ 2 * c - c ^ 3 / 3) := by
      apply intervalIntegral.integral_eq_sub_of_hasDerivAt (f := fun a => r ^ 2 * a - a ^ 3 / 3)
      · intro a _
        have := ((hasDerivAt_id a).const_mul (r ^ 2)).sub (((hasDerivAt_id a).pow 3).div_const 3)
        refine HasDerivAt.congr_deriv this ?_
        simp only [id]
        push_cast
        ring
      · exact (by fun_prop : Continuous fun a : ℝ => r ^ 2 - a ^ 2).intervalIntegrable _ _
    rw [i1, i2, hc]
    field_simp
    ring
  · intro a ha1 ha2
    refine mul_nonneg Real.pi_pos.le (le_min ?_ ?_)
    · nlinarith
    · nlinarith
  · rintro a (ha | ha)
    · refine mul_nonpos_of_nonneg_of_nonpos Real.pi_pos.le ((min_le_right _ _).trans ?_)
      nlinarith
    · refine mul_nonpos_of_nonneg_of_nonpos Real.pi_pos.le ((min_le_left _ _).trans ?_)
      nlinarith

/-- The volume of the intersection of two balls depends on the radii and the distance of the centres only. -/
theorem volume_balls_move (x y x' y' : EuclideanSpace ℝ (Fin 3)) (r t : ℝ) (h : ‖y - x‖ = ‖y' - x'‖) :
    volume (closedBall x r ∩ closedBall y t) = volume (closedBall x' r ∩ closedBall y' t) := by
  set R := (ℝ ∙ ((y - x) - (y' - x')))ᗮ.reflection with hR
  have hRxy : R (y - x) = y' - x' := Submodule.reflection_sub h
  have hpre : closedBall x r ∩ closedBall y t = (fun z => R (z - x) + x') ⁻¹' (closedBall x' r ∩ closedBall y' t) := by
    ext z
    have h1 : dist (R (z - x) + x') x' = dist z x := by
      rw [dist_eq_norm, dist_eq_norm, add_sub_cancel_right, LinearIsometryEquiv.norm_map]
    have h2 : dist (R (z - x) + x') y' = dist z y := by
      rw [dist_eq_norm, dist_eq_norm, show R (z - x) + x' - y' = R (z - y) from by
        rw [show z - y = (z - x) - (y - x) by abel, map_sub R (z - x), hRxy]
        abel, LinearIsometryEquiv.norm_map]
    simp only [Set.mem_inter_iff, Set.mem_preimage, mem_closedBall, h1, h2]
  have hmp : MeasurePreserving (fun z => R (z - x) + x') volume volume := by
    have h1 : MeasurePreserving (fun z : EuclideanSpace ℝ (Fin 3) => z - x) volume volume := measurePreserving_sub_right volume x
    have h2 : MeasurePreserving (fun z : EuclideanSpace ℝ (Fin 3) => R z) volume volume := R.measurePreserving
    have h3 : MeasurePreserving (fun z : EuclideanSpace ℝ (Fin 3) => z + x') volume volume := measurePreserving_add_right volume x'
    exact h3.comp (h2.comp h1)
  rw [hpre, hmp.measure_preimage (measurableSet_closedBall.inter measurableSet_closedBall).nullMeasurableSet]

/-- The volume of the intersection of two balls neither of which contains the other's far side -/
theorem volume_lens (x y : EuclideanSpace ℝ (Fin 3)) {r t : ℝ} (hr : 0 < r) (ht : 0 < t) (hd : 0 < ‖y - x‖) (h1 : ‖y - x‖ ≤ r + t)
    (h2 : r ≤ ‖y - x‖ + t) (h3 : t ≤ ‖y - x‖ + r) :
    volume (closedBall x r ∩ closedBall y t) = ENNReal.ofReal (Real.pi * (t + r - ‖y - x‖) * (t + r - ‖y - x‖) *
      (‖y - x‖ * ‖y - x‖ + 2 * ‖y - x‖ * r - 3 * r * r + 2 * ‖y - x‖ * t + 6 * r * t - 3 * t * t) / (12 * ‖y - x‖)) := by
  have hax := volume_lens_axis hr ht hd h1 h2 h3
  rw [← hax]
  have hn : ‖y - x‖ = ‖(EuclideanSpace.single 0 ‖y - x‖ : EuclideanSpace ℝ (Fin 3)) - 0‖ := by simp
  rw [volume_balls_move x y 0 (EuclideanSpace.single 0 ‖y - x‖) r t hn]
  generalize ‖y - x‖ = d
  have hpre : closedBall (0 : EuclideanSpace ℝ (Fin 3)) r ∩ closedBall (EuclideanSpace.single 0 d) t =
      WithLp.ofLp ⁻¹' {z : Fin 3 → ℝ | z 0 ^ 2 + z 1 ^ 2 + z 2 ^ 2 ≤ r ^ 2 ∧ (z 0 - d) ^ 2 + z 1 ^ 2 + z 2 ^ 2 ≤ t ^ 2} := by
    ext z
    have e1 : z ∈ closedBall (0 : EuclideanSpace ℝ (Fin 3)) r ↔ z 0 ^ 2 + z 1 ^ 2 + z 2 ^ 2 ≤ r ^ 2 := by
      rw [mem_closedBall, dist_eq_norm, sub_zero, EuclideanSpace.norm_eq, Real.sqrt_le_left hr.le]
      simp [Fin.sum_univ_three]
    have e2 : z ∈ closedBall (EuclideanSpace.single 0 d : EuclideanSpace ℝ (Fin 3)) t ↔ (z 0 - d) ^ 2 + z 1 ^ 2 + z 2 ^ 2 ≤ t ^ 2 := by
      rw [mem_closedBall, dist_eq_norm, EuclideanSpace.norm_eq, Real.sqrt_le_left ht.le]
      simp [Fin.sum_univ_three]
    rw [Set.mem_inter_iff, e1, e2]
    rfl
  rw [hpre, (PiLp.volume_preserving_ofLp (Fin 3)).measure_preimage]
  have m1 : MeasurableSet {z : Fin 3 → ℝ | z 0 ^ 2 + z 1 ^ 2 + z 2 ^ 2 ≤ r ^ 2} := measurableSet_le (by fun_prop) (by fun_prop)
  have m2 : MeasurableSet {z : Fin 3 → ℝ | (z 0 - d) ^ 2 + z 1 ^ 2 + z 2 ^ 2 ≤ t ^ 2} := measurableSet_le (by fun_prop) (by fun_prop)
  exact (m1.inter m2).nullMeasurableSet

end Scisim
