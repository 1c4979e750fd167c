import Mathlib.Analysis.SpecialFunctions.PolarCoord
import Mathlib.Analysis.SpecialFunctions.Integrals.Basic
import Mathlib.MeasureTheory.Integral.Prod
import Mathlib.MeasureTheory.Constructions.Pi
import Mathlib.MeasureTheory.Measure.Lebesgue.Basic
import Mathlib.MeasureTheory.Function.Jacobian
import Mathlib.Tactic.FinCases
import Mathlib.Tactic.Module
import Mathlib.Analysis.Convex.Combination
import Mathlib.LinearAlgebra.Matrix.ToLin
import Mathlib.LinearAlgebra.Determinant
import Verif.Model.Rotations
/-!
# Integrals over discs, balls, boxes and tetrahedra
-/

namespace Scisim

open MeasureTheory Set

/-- Integral of a polynomial of degree at most 5 -/
theorem integral_poly (a b c0 c1 c2 c3 c4 c5 : ℝ) :
    ∫ t in a..b, (c0 + c1 * t + c2 * t ^ 2 + c3 * t ^ 3 + c4 * t ^ 4 + c5 * t ^ 5) =
      c0 * (b - a) + c1 * (b ^ 2 - a ^ 2) / 2 + c2 * (b ^ 3 - a ^ 3) / 3 + c3 * (b ^ 4 - a ^ 4) / 4 + c4 * (b ^ 5 - a ^ 5) / 5 + c5 * (b ^ 6 - a ^ 6) / 6 := by
  have h : ∀ t ∈ uIcc a b, HasDerivAt (fun t => c0 * t + c1 * t ^ 2 / 2 + c2 * t ^ 3 / 3 + c3 * t ^ 4 / 4 + c4 * t ^ 5 / 5 + c5 * t ^ 6 / 6)
      (c0 + c1 * t + c2 * t ^ 2 + c3 * t ^ 3 + c4 * t ^ 4 + c5 * t ^ 5) t := by
    intro t _
    have h1 := (hasDerivAt_id t).const_mul c0
    have h2 := ((hasDerivAt_pow 2 t).const_mul c1).div_const 2
    have h3 := ((hasDerivAt_pow 3 t).const_mul c2).div_const 3
    have h4 := ((hasDerivAt_pow 4 t).const_mul c3).div_const 4
    have h5 := ((hasDerivAt_pow 5 t).const_mul c4).div_const 5
    have h6 := ((hasDerivAt_pow 6 t).const_mul c5).div_const 6
    convert! ((((h1.add h2).add h3).add h4).add h5).add h6 using 1
    push_cast
    ring
  rw [intervalIntegral.integral_eq_sub_of_hasDerivAt h (Continuous.intervalIntegrable (by fun_prop) _ _)]
  ring

/-! ## Discs -/

/-- The disc of radius `s` around the origin -/
def discR (s : ℝ) : Set (ℝ × ℝ) := {p | p.1 ^ 2 + p.2 ^ 2 ≤ s ^ 2}

theorem discR_measurable (s : ℝ) : MeasurableSet (discR s) :=
  (isClosed_le (by fun_prop) (by fun_prop)).measurableSet

theorem disc_polar (s : ℝ) (hs : 0 ≤ s) (g : ℝ × ℝ → ℝ) (hg : Continuous g) :
    ∫ p in discR s, g p = ∫ r in (0 : ℝ)..s, ∫ t in (-Real.pi)..Real.pi, r * g (r * Real.cos t, r * Real.sin t) := by
  rw [← integral_indicator (discR_measurable s), ← integral_comp_polarCoord_symm]
  have htarget : polarCoord.target = Ioi (0 : ℝ) ×ˢ Ioo (-Real.pi) Real.pi := rfl
  have hmeas : MeasurableSet (Ioi (0 : ℝ) ×ˢ Ioo (-Real.pi) Real.pi) := measurableSet_Ioi.prod measurableSet_Ioo
  have hmeas' : MeasurableSet (Ioc (0 : ℝ) s ×ˢ Ioo (-Real.pi) Real.pi) := measurableSet_Ioc.prod measurableSet_Ioo
  have hsub : Ioc (0 : ℝ) s ×ˢ Ioo (-Real.pi) Real.pi ⊆ Ioi (0 : ℝ) ×ˢ Ioo (-Real.pi) Real.pi :=
    prod_mono (fun x hx => hx.1) (subset_refl _)
  have h1 : ∫ p in polarCoord.target, p.1 • (discR s).indicator g (polarCoord.symm p) =
      ∫ p in Ioc (0 : ℝ) s ×ˢ Ioo (-Real.pi) Real.pi, p.1 * g (p.1 * Real.cos p.2, p.1 * Real.sin p.2) := by
    rw [htarget, ← integral_indicator hmeas, ← integral_indicator hmeas']
    congr 1
    ext p
    by_cases hp : p ∈ Ioi (0 : ℝ) ×ˢ Ioo (-Real.pi) Real.pi
    · rw [indicator_of_mem hp]
      have hsymm : polarCoord.symm p = (p.1 * Real.cos p.2, p.1 * Real.sin p.2) := rfl
      rw [hsymm]
      have hp1 : 0 < p.1 := hp.1
      have hsq : (p.1 * Real.cos p.2) ^ 2 + (p.1 * Real.sin p.2) ^ 2 = p.1 ^ 2 := by
        rw [mul_pow, mul_pow, ← mul_add, Real.cos_sq_add_sin_sq, mul_one]
      by_cases hle : p.1 ≤ s
      · rw [indicator_of_mem (s := discR s), indicator_of_mem (s := Ioc (0 : ℝ) s ×ˢ Ioo (-Real.pi) Real.pi), smul_eq_mul]
        · exact ⟨⟨hp1, hle⟩, hp.2⟩
        · show _ ^ 2 + _ ^ 2 ≤ s ^ 2
          simp only
          rw [hsq]
          exact pow_le_pow_left₀ hp1.le hle 2
      · rw [indicator_of_notMem (s := discR s), indicator_of_notMem (s := Ioc (0 : ℝ) s ×ˢ Ioo (-Real.pi) Real.pi), smul_zero]
        · exact fun h => hle h.1.2
        · intro h
          have h : (p.1 * Real.cos p.2) ^ 2 + (p.1 * Real.sin p.2) ^ 2 ≤ s ^ 2 := h
          rw [hsq] at h
          exact hle (abs_le_of_sq_le_sq' h hs).2
    · rw [indicator_of_notMem hp, indicator_of_notMem (fun h => hp (hsub h))]
  rw [h1, Measure.volume_eq_prod, setIntegral_prod, intervalIntegral.integral_of_le hs]
  · refine setIntegral_congr_fun measurableSet_Ioc fun r _ => ?_
    simp only
    rw [intervalIntegral.integral_of_le (by linarith [Real.pi_pos]), integral_Ioc_eq_integral_Ioo]
  · have hK : IsCompact (Icc (0 : ℝ) s ×ˢ Icc (-Real.pi) Real.pi) := isCompact_Icc.prod isCompact_Icc
    have : ContinuousOn (fun p : ℝ × ℝ => p.1 * g (p.1 * Real.cos p.2, p.1 * Real.sin p.2)) (Icc (0 : ℝ) s ×ˢ Icc (-Real.pi) Real.pi) :=
      (by fun_prop : Continuous _).continuousOn
    rw [← Measure.volume_eq_prod]
    exact (this.integrableOn_compact hK).mono_set (prod_mono Ioc_subset_Icc_self Ioo_subset_Icc_self)

theorem cos_sq_period : ∫ t in (-Real.pi)..Real.pi, Real.cos t ^ 2 = Real.pi := by
  rw [integral_cos_sq]
  simp

theorem sin_sq_period : ∫ t in (-Real.pi)..Real.pi, Real.sin t ^ 2 = Real.pi := by
  rw [integral_sin_sq]
  simp

/-- Area, first and second moments of a disc -/
theorem disc_moments (s : ℝ) (hs : 0 ≤ s) :
    ∫ _p in discR s, (1 : ℝ) = Real.pi * s ^ 2 ∧ ∫ p in discR s, p.1 = 0 ∧ ∫ p in discR s, p.2 = 0 ∧
    ∫ p in discR s, p.1 ^ 2 = Real.pi * s ^ 4 / 4 ∧ ∫ p in discR s, p.2 ^ 2 = Real.pi * s ^ 4 / 4 ∧ ∫ p in discR s, p.1 * p.2 = 0 := by
  refine ⟨?_, ?_, ?_, ?_, ?_, ?_⟩
  · rw [disc_polar s hs (fun _ => 1) (by fun_prop)]
    have : (fun r : ℝ => ∫ _t in (-Real.pi)..Real.pi, r * (1 : ℝ)) = fun r => 0 + (2 * Real.pi) * r + 0 * r ^ 2 + 0 * r ^ 3 + 0 * r ^ 4 + 0 * r ^ 5 := by
      ext r
      rw [intervalIntegral.integral_const, smul_eq_mul]
      ring
    rw [this, integral_poly]
    ring
  · rw [disc_polar s hs (fun p => p.1) (by fun_prop)]
    have : (fun r : ℝ => ∫ t in (-Real.pi)..Real.pi, r * (r * Real.cos t)) = fun r => 0 := by
      ext r
      simp_rw [← mul_assoc]
      rw [intervalIntegral.integral_const_mul, integral_cos]
      simp
    rw [this]
    simp
  · rw [disc_polar s hs (fun p => p.2) (by fun_prop)]
    have : (fun r : ℝ => ∫ t in (-Real.pi)..Real.pi, r * (r * Real.sin t)) = fun r => 0 := by
      ext r
      simp_rw [← mul_assoc]
      rw [intervalIntegral.integral_const_mul, integral_sin]
      simp
    rw [this]
    simp
  · rw [disc_polar s hs (fun p => p.1 ^ 2) (by fun_prop)]
    have : (fun r : ℝ => ∫ t in (-Real.pi)..Real.pi, r * (r * Real.cos t) ^ 2) = fun r => 0 + 0 * r + 0 * r ^ 2 + Real.pi * r ^ 3 + 0 * r ^ 4 + 0 * r ^ 5 := by
      ext r
      simp_rw [mul_pow, ← mul_assoc]
      rw [intervalIntegral.integral_const_mul, cos_sq_period]
      ring
    rw [this, integral_poly]
    ring
  · rw [disc_polar s hs (fun p => p.2 ^ 2) (by fun_prop)]
    have : (fun r : ℝ => ∫ t in (-Real.pi)..Real.pi, r * (r * Real.sin t) ^ 2) = fun r => 0 + 0 * r + 0 * r ^ 2 + Real.pi * r ^ 3 + 0 * r ^ 4 + 0 * r ^ 5 := by
      ext r
      simp_rw [mul_pow, ← mul_assoc]
      rw [intervalIntegral.integral_const_mul, sin_sq_period]
      ring
    rw [this, integral_poly]
    ring
  · rw [disc_polar s hs (fun p => p.1 * p.2) (by fun_prop)]
    have : (fun r : ℝ => ∫ t in (-Real.pi)..Real.pi, r * (r * Real.cos t * (r * Real.sin t))) = fun r => 0 := by
      ext r
      have : ∀ t, r * (r * Real.cos t * (r * Real.sin t)) = r ^ 3 * (Real.sin t * Real.cos t) := fun t => by ring
      simp_rw [this]
      rw [intervalIntegral.integral_const_mul, integral_sin_mul_cos₁]
      simp
    rw [this]
    simp

/-! ## Space as a product -/

/-- The coordinates of a point, as a pair and one more -/
noncomputable def splitVec3 : Vec3 ≃ᵐ ℝ × ℝ × ℝ :=
  (MeasurableEquiv.piFinSuccAbove (fun _ : Fin 3 => ℝ) 0).trans (MeasurableEquiv.prodCongr (MeasurableEquiv.refl ℝ) MeasurableEquiv.finTwoArrow)

theorem splitVec3_apply (z : Vec3) : splitVec3 z = (z 0, z 1, z 2) := rfl

theorem splitVec3_preserving : MeasurePreserving splitVec3 (volume : Measure Vec3) (volume : Measure (ℝ × ℝ × ℝ)) :=
  ((MeasurePreserving.id volume).prod (volume_preserving_finTwoArrow ℝ)).comp (volume_preserving_piFinSuccAbove (fun _ : Fin 3 => ℝ) 0)

/-- Fubini for sets in space: slices with constant first coordinate -/
theorem integral_vec3 (S : Set Vec3) (hS : MeasurableSet S) (F : Vec3 → ℝ) (hF : IntegrableOn F S) :
    ∫ z in S, F z = ∫ x : ℝ, ∫ q : ℝ × ℝ, S.indicator F ![x, q.1, q.2] := by
  have hsymm : ∀ y : ℝ × ℝ × ℝ, splitVec3.symm y = ![y.1, y.2.1, y.2.2] := by
    intro y
    apply splitVec3.injective
    rw [MeasurableEquiv.apply_symm_apply, splitVec3_apply]
    rfl
  have hp := splitVec3_preserving.symm
  rw [← integral_indicator hS, ← hp.integral_comp splitVec3.symm.measurableEmbedding (S.indicator F)]
  simp_rw [hsymm]
  rw [Measure.volume_eq_prod, integral_prod]
  have hi : Integrable (S.indicator F) := (integrable_indicator_iff hS).mpr hF
  have := hp.integrable_comp_of_integrable hi
  rw [← Measure.volume_eq_prod]
  have he : (S.indicator F ∘ splitVec3.symm) = fun y : ℝ × ℝ × ℝ => S.indicator F ![y.1, y.2.1, y.2.2] :=
    funext fun y => by rw [Function.comp_apply, hsymm]
  rw [he] at this
  exact this

/-! ## Balls -/

/-- The ball of radius `r` around the origin -/
def ballR (r : ℝ) : Set Vec3 := {z | z 0 ^ 2 + z 1 ^ 2 + z 2 ^ 2 ≤ r ^ 2}

theorem ballR_compact (r : ℝ) : IsCompact (ballR r) := by
  refine (isCompact_Icc (a := (fun _ => -|r| : Vec3)) (b := fun _ => |r|)).of_isClosed_subset
    (isClosed_le (by fun_prop) (by fun_prop)) ?_
  intro z hz
  have hz : z 0 ^ 2 + z 1 ^ 2 + z 2 ^ 2 ≤ r ^ 2 := hz
  have key : ∀ i, -|r| ≤ z i ∧ z i ≤ |r| := by
    intro i
    have h : z i ^ 2 ≤ |r| ^ 2 := by
      rw [sq_abs]
      have h0 := sq_nonneg (z 0)
      have h1 := sq_nonneg (z 1)
      have h2 := sq_nonneg (z 2)
      fin_cases i <;> simp <;> linarith
    exact abs_le_of_sq_le_sq' h (abs_nonneg r)
  exact ⟨fun i => (key i).1, fun i => (key i).2⟩

theorem ball_slices (r : ℝ) (hr : 0 ≤ r) (F : Vec3 → ℝ) (hF : Continuous F) :
    ∫ z in ballR r, F z = ∫ x in (-r)..r, ∫ q in discR (Real.sqrt (r ^ 2 - x ^ 2)), F ![x, q.1, q.2] := by
  rw [integral_vec3 _ (ballR_compact r).isClosed.measurableSet F (hF.continuousOn.integrableOn_compact (ballR_compact r)),
    intervalIntegral.integral_of_le (by linarith), ← integral_Icc_eq_integral_Ioc, ← integral_indicator measurableSet_Icc]
  congr 1
  ext x
  by_cases hx : x ∈ Icc (-r) r
  · rw [indicator_of_mem hx, ← integral_indicator (discR_measurable _)]
    congr 1
    ext q
    have hsq : 0 ≤ r ^ 2 - x ^ 2 := by nlinarith [hx.1, hx.2, mul_nonneg (sub_nonneg.mpr hx.1) (sub_nonneg.mpr hx.2)]
    have hiff : (![x, q.1, q.2] : Vec3) ∈ ballR r ↔ q ∈ discR (Real.sqrt (r ^ 2 - x ^ 2)) := by
      show x ^ 2 + q.1 ^ 2 + q.2 ^ 2 ≤ r ^ 2 ↔ q.1 ^ 2 + q.2 ^ 2 ≤ Real.sqrt (r ^ 2 - x ^ 2) ^ 2
      rw [Real.sq_sqrt hsq]
      constructor <;> intro h <;> linarith
    by_cases hq : q ∈ discR (Real.sqrt (r ^ 2 - x ^ 2))
    · rw [indicator_of_mem hq, indicator_of_mem (hiff.mpr hq)]
    · rw [indicator_of_notMem hq, indicator_of_notMem (fun h => hq (hiff.mp h))]
  · rw [indicator_of_notMem hx]
    have : ∀ q : ℝ × ℝ, (ballR r).indicator F ![x, q.1, q.2] = 0 := by
      intro q
      refine indicator_of_notMem (fun h => hx ?_) _
      have h : x ^ 2 + q.1 ^ 2 + q.2 ^ 2 ≤ r ^ 2 := h
      exact abs_le_of_sq_le_sq' (by nlinarith [sq_nonneg q.1, sq_nonneg q.2]) hr
    simp [this]

theorem slice_radius {r x : ℝ} (hx : x ∈ uIcc (-r) r) (hr : 0 ≤ r) : 0 ≤ r ^ 2 - x ^ 2 := by
  rw [uIcc_of_le (by linarith)] at hx
  nlinarith [hx.1, hx.2, mul_nonneg (sub_nonneg.mpr hx.1) (sub_nonneg.mpr hx.2)]

/-- Volume, first and second moments of a ball -/
theorem ball_moments (r : ℝ) (hr : 0 ≤ r) :
    ∫ _z in ballR r, (1 : ℝ) = 4 * Real.pi * r ^ 3 / 3 ∧ (∀ i, ∫ z in ballR r, z i = 0) ∧
    (∀ i, ∫ z in ballR r, z i ^ 2 = 4 * Real.pi * r ^ 5 / 15) ∧ (∀ i j, i ≠ j → ∫ z in ballR r, z i * z j = 0) := by
  have hsqrt : ∀ x ∈ uIcc (-r) r, Real.sqrt (r ^ 2 - x ^ 2) ^ 2 = r ^ 2 - x ^ 2 := fun x hx => Real.sq_sqrt (slice_radius hx hr)
  have hsqrt4 : ∀ x ∈ uIcc (-r) r, Real.sqrt (r ^ 2 - x ^ 2) ^ 4 = (r ^ 2 - x ^ 2) ^ 2 := fun x hx => by
    rw [show 4 = 2 * 2 from rfl, pow_mul, hsqrt x hx]
  have hm := fun x => disc_moments (Real.sqrt (r ^ 2 - x ^ 2)) (Real.sqrt_nonneg _)
  have a0 : ∫ _z in ballR r, (1 : ℝ) = 4 * Real.pi * r ^ 3 / 3 := by
    rw [ball_slices r hr (fun _ => 1) (by fun_prop)]
    have : ∀ x ∈ uIcc (-r) r, ∫ _q in discR (Real.sqrt (r ^ 2 - x ^ 2)), (1 : ℝ) = Real.pi * r ^ 2 + 0 * x + (-Real.pi) * x ^ 2 + 0 * x ^ 3 + 0 * x ^ 4 + 0 * x ^ 5 := by
      intro x hx
      rw [(hm x).1, hsqrt x hx]; ring
    rw [intervalIntegral.integral_congr this, integral_poly]
    ring
  have b0 : ∫ z in ballR r, z 0 = 0 := by
    rw [ball_slices r hr (fun z => z 0) (by fun_prop)]
    have : ∀ x ∈ uIcc (-r) r, ∫ q in discR (Real.sqrt (r ^ 2 - x ^ 2)), (![x, q.1, q.2] : Vec3) 0 = 0 + (Real.pi * r ^ 2) * x + 0 * x ^ 2 + (-Real.pi) * x ^ 3 + 0 * x ^ 4 + 0 * x ^ 5 := by
      intro x hx
      have h := (hm x).1
      rw [hsqrt x hx] at h
      have : ∀ q : ℝ × ℝ, (![x, q.1, q.2] : Vec3) 0 = x * 1 := fun q => (mul_one x).symm
      simp_rw [this]
      rw [integral_const_mul, h]; ring
    rw [intervalIntegral.integral_congr this, integral_poly]
    ring
  have b1 : ∫ z in ballR r, z 1 = 0 := by
    rw [ball_slices r hr (fun z => z 1) (by fun_prop)]
    have : ∀ x ∈ uIcc (-r) r, ∫ q in discR (Real.sqrt (r ^ 2 - x ^ 2)), (![x, q.1, q.2] : Vec3) 1 = (fun _ => (0 : ℝ)) x :=
      fun x _ => (hm x).2.1
    rw [intervalIntegral.integral_congr this]
    simp
  have b2 : ∫ z in ballR r, z 2 = 0 := by
    rw [ball_slices r hr (fun z => z 2) (by fun_prop)]
    have : ∀ x ∈ uIcc (-r) r, ∫ q in discR (Real.sqrt (r ^ 2 - x ^ 2)), (![x, q.1, q.2] : Vec3) 2 = (fun _ => (0 : ℝ)) x :=
      fun x _ => (hm x).2.2.1
    rw [intervalIntegral.integral_congr this]
    simp
  have c0 : ∫ z in ballR r, z 0 ^ 2 = 4 * Real.pi * r ^ 5 / 15 := by
    rw [ball_slices r hr (fun z => z 0 ^ 2) (by fun_prop)]
    have : ∀ x ∈ uIcc (-r) r, ∫ q in discR (Real.sqrt (r ^ 2 - x ^ 2)), (![x, q.1, q.2] : Vec3) 0 ^ 2 = 0 + 0 * x + (Real.pi * r ^ 2) * x ^ 2 + 0 * x ^ 3 + (-Real.pi) * x ^ 4 + 0 * x ^ 5 := by
      intro x hx
      have h := (hm x).1
      rw [hsqrt x hx] at h
      have : ∀ q : ℝ × ℝ, (![x, q.1, q.2] : Vec3) 0 ^ 2 = x ^ 2 * 1 := fun q => (mul_one _).symm
      simp_rw [this]
      rw [integral_const_mul, h]; ring
    rw [intervalIntegral.integral_congr this, integral_poly]
    ring
  have c1 : ∫ z in ballR r, z 1 ^ 2 = 4 * Real.pi * r ^ 5 / 15 := by
    rw [ball_slices r hr (fun z => z 1 ^ 2) (by fun_prop)]
    have : ∀ x ∈ uIcc (-r) r, ∫ q in discR (Real.sqrt (r ^ 2 - x ^ 2)), (![x, q.1, q.2] : Vec3) 1 ^ 2 = Real.pi * r ^ 4 / 4 + 0 * x + (-(Real.pi * r ^ 2 / 2)) * x ^ 2 + 0 * x ^ 3 + (Real.pi / 4) * x ^ 4 + 0 * x ^ 5 := by
      intro x hx
      have h := (hm x).2.2.2.1
      rw [hsqrt4 x hx] at h
      exact h.trans (by ring)
    rw [intervalIntegral.integral_congr this, integral_poly]
    ring
  have c2 : ∫ z in ballR r, z 2 ^ 2 = 4 * Real.pi * r ^ 5 / 15 := by
    rw [ball_slices r hr (fun z => z 2 ^ 2) (by fun_prop)]
    have : ∀ x ∈ uIcc (-r) r, ∫ q in discR (Real.sqrt (r ^ 2 - x ^ 2)), (![x, q.1, q.2] : Vec3) 2 ^ 2 = Real.pi * r ^ 4 / 4 + 0 * x + (-(Real.pi * r ^ 2 / 2)) * x ^ 2 + 0 * x ^ 3 + (Real.pi / 4) * x ^ 4 + 0 * x ^ 5 := by
      intro x hx
      have h := (hm x).2.2.2.2.1
      rw [hsqrt4 x hx] at h
      exact h.trans (by ring)
    rw [intervalIntegral.integral_congr this, integral_poly]
    ring
  have d01 : ∫ z in ballR r, z 0 * z 1 = 0 := by
    rw [ball_slices r hr (fun z => z 0 * z 1) (by fun_prop)]
    have : ∀ x ∈ uIcc (-r) r, ∫ q in discR (Real.sqrt (r ^ 2 - x ^ 2)), (![x, q.1, q.2] : Vec3) 0 * (![x, q.1, q.2] : Vec3) 1 = (fun _ => (0 : ℝ)) x := by
      intro x _
      have : ∀ q : ℝ × ℝ, (![x, q.1, q.2] : Vec3) 0 * (![x, q.1, q.2] : Vec3) 1 = x * q.1 := fun q => rfl
      simp_rw [this]
      rw [integral_const_mul, (hm x).2.1, mul_zero]
    rw [intervalIntegral.integral_congr this]
    simp
  have d02 : ∫ z in ballR r, z 0 * z 2 = 0 := by
    rw [ball_slices r hr (fun z => z 0 * z 2) (by fun_prop)]
    have : ∀ x ∈ uIcc (-r) r, ∫ q in discR (Real.sqrt (r ^ 2 - x ^ 2)), (![x, q.1, q.2] : Vec3) 0 * (![x, q.1, q.2] : Vec3) 2 = (fun _ => (0 : ℝ)) x := by
      intro x _
      have : ∀ q : ℝ × ℝ, (![x, q.1, q.2] : Vec3) 0 * (![x, q.1, q.2] : Vec3) 2 = x * q.2 := fun q => rfl
      simp_rw [this]
      rw [integral_const_mul, (hm x).2.2.1, mul_zero]
    rw [intervalIntegral.integral_congr this]
    simp
  have d12 : ∫ z in ballR r, z 1 * z 2 = 0 := by
    rw [ball_slices r hr (fun z => z 1 * z 2) (by fun_prop)]
    have : ∀ x ∈ uIcc (-r) r, ∫ q in discR (Real.sqrt (r ^ 2 - x ^ 2)), (![x, q.1, q.2] : Vec3) 1 * (![x, q.1, q.2] : Vec3) 2 = (fun _ => (0 : ℝ)) x :=
      fun x _ => (hm x).2.2.2.2.2
    rw [intervalIntegral.integral_congr this]
    simp
  have d10 : ∫ z in ballR r, z 1 * z 0 = 0 := by simp_rw [mul_comm]; exact d01
  have d20 : ∫ z in ballR r, z 2 * z 0 = 0 := by simp_rw [mul_comm]; exact d02
  have d21 : ∫ z in ballR r, z 2 * z 1 = 0 := by simp_rw [mul_comm]; exact d12
  refine ⟨a0, fun i => ?_, fun i => ?_, fun i j hij => ?_⟩
  · fin_cases i
    · exact b0
    · exact b1
    · exact b2
  · fin_cases i
    · exact c0
    · exact c1
    · exact c2
  · fin_cases i <;> fin_cases j <;> first | exact absurd rfl hij | assumption

/-! ## Sets between graphs -/

theorem integral_between2 (T : Set (ℝ × ℝ)) (hT : IsCompact T) (c d : ℝ) (e f : ℝ → ℝ) (hcd : c ≤ d) (hef : ∀ y ∈ Icc c d, e y ≤ f y)
    (hmem : ∀ q : ℝ × ℝ, q ∈ T ↔ q.1 ∈ Icc c d ∧ q.2 ∈ Icc (e q.1) (f q.1)) (G : ℝ × ℝ → ℝ) (hG : Continuous G) :
    ∫ q in T, G q = ∫ y in c..d, ∫ z in e y..f y, G (y, z) := by
  have hTm : MeasurableSet T := hT.isClosed.measurableSet
  have hi : Integrable (T.indicator G) := (integrable_indicator_iff hTm).mpr (hG.continuousOn.integrableOn_compact hT)
  rw [← integral_indicator hTm, Measure.volume_eq_prod, integral_prod _ (by rw [← Measure.volume_eq_prod]; exact hi),
    intervalIntegral.integral_of_le hcd, ← integral_Icc_eq_integral_Ioc, ← integral_indicator measurableSet_Icc]
  congr 1
  ext y
  by_cases hy : y ∈ Icc c d
  · rw [indicator_of_mem hy, intervalIntegral.integral_of_le (hef y hy), ← integral_Icc_eq_integral_Ioc, ← integral_indicator measurableSet_Icc]
    congr 1
    ext z
    by_cases hz : z ∈ Icc (e y) (f y)
    · rw [indicator_of_mem hz, indicator_of_mem ((hmem (y, z)).mpr ⟨hy, hz⟩)]
    · rw [indicator_of_notMem hz, indicator_of_notMem (fun h => hz ((hmem (y, z)).mp h).2)]
  · rw [indicator_of_notMem hy]
    have : ∀ z : ℝ, T.indicator G (y, z) = 0 := fun z => indicator_of_notMem (fun h => hy ((hmem (y, z)).mp h).1) _
    simp [this]

theorem integral_between3 (S : Set Vec3) (hS : IsCompact S) (a b : ℝ) (c d : ℝ → ℝ) (e f : ℝ → ℝ → ℝ) (hab : a ≤ b)
    (hcd : ∀ x ∈ Icc a b, c x ≤ d x) (hef : ∀ x ∈ Icc a b, ∀ y ∈ Icc (c x) (d x), e x y ≤ f x y)
    (hmem : ∀ x y z : ℝ, (![x, y, z] : Vec3) ∈ S ↔ x ∈ Icc a b ∧ y ∈ Icc (c x) (d x) ∧ z ∈ Icc (e x y) (f x y)) (F : Vec3 → ℝ) (hF : Continuous F) :
    ∫ v in S, F v = ∫ x in a..b, ∫ y in c x..d x, ∫ z in e x y..f x y, F ![x, y, z] := by
  rw [integral_vec3 _ hS.isClosed.measurableSet F (hF.continuousOn.integrableOn_compact hS), intervalIntegral.integral_of_le hab,
    ← integral_Icc_eq_integral_Ioc, ← integral_indicator measurableSet_Icc]
  congr 1
  ext x
  by_cases hx : x ∈ Icc a b
  · rw [indicator_of_mem hx]
    have hcont : Continuous fun q : ℝ × ℝ => (![x, q.1, q.2] : Vec3) := by
      refine continuous_pi fun i => ?_
      fin_cases i
      · exact continuous_const
      · exact continuous_fst
      · exact continuous_snd
    have hcompact : IsCompact {q : ℝ × ℝ | (![x, q.1, q.2] : Vec3) ∈ S} := by
      have hproj : Continuous fun v : Vec3 => (v 1, v 2) := by fun_prop
      refine (hS.image hproj).of_isClosed_subset (hS.isClosed.preimage hcont) ?_
      intro q hq
      exact ⟨_, hq, rfl⟩
    rw [← integral_between2 {q : ℝ × ℝ | (![x, q.1, q.2] : Vec3) ∈ S} hcompact (c x) (d x) (e x) (f x) (hcd x hx) (hef x hx)
      (fun q => by
        show (![x, q.1, q.2] : Vec3) ∈ S ↔ _
        rw [hmem]
        exact ⟨fun h => h.2, fun h => ⟨hx, h⟩⟩) (fun q => F ![x, q.1, q.2]) (hF.comp hcont),
      ← integral_indicator hcompact.isClosed.measurableSet]
    rfl
  · rw [indicator_of_notMem hx]
    have : ∀ q : ℝ × ℝ, S.indicator F ![x, q.1, q.2] = 0 :=
      fun q => indicator_of_notMem (fun h => hx ((hmem x q.1 q.2).mp h).1) _
    simp [this]

/-! ## Boxes -/

/-- The box with half widths `w` around the origin -/
def boxR (w : Vec3) : Set Vec3 := {z | ∀ i, |z i| ≤ w i}

theorem boxR_compact (w : Vec3) : IsCompact (boxR w) := by
  have : boxR w = Icc (fun i => -w i) w := by
    ext z
    simp only [boxR, mem_ofPred_eq, abs_le, mem_Icc, Pi.le_def, forall_and]
  rw [this]
  exact isCompact_Icc

theorem box_slices (w : Vec3) (hw : ∀ i, 0 ≤ w i) (F : Vec3 → ℝ) (hF : Continuous F) :
    ∫ v in boxR w, F v = ∫ x in (-w 0)..w 0, ∫ y in (-w 1)..w 1, ∫ z in (-w 2)..w 2, F ![x, y, z] := by
  refine integral_between3 (boxR w) (boxR_compact w) (-w 0) (w 0) (fun _ => -w 1) (fun _ => w 1) (fun _ _ => -w 2) (fun _ _ => w 2)
    (by linarith [hw 0]) (fun _ _ => by linarith [hw 1]) (fun _ _ _ _ => by linarith [hw 2]) (fun x y z => ?_) F hF
  constructor
  · intro h
    exact ⟨abs_le.mp (h 0), abs_le.mp (h 1), abs_le.mp (h 2)⟩
  · rintro ⟨h0, h1, h2⟩ i
    fin_cases i
    · exact abs_le.mpr h0
    · exact abs_le.mpr h1
    · exact abs_le.mpr h2

/-! ## Polynomials of degree two -/

/-- The polynomial with the given coefficients of 1, x, y, z, x², y², z², xy, yz, zx -/
def quadPoly (k : Fin 10 → ℝ) (v : Vec3) : ℝ :=
  k 0 + k 1 * v 0 + k 2 * v 1 + k 3 * v 2 + k 4 * v 0 ^ 2 + k 5 * v 1 ^ 2 + k 6 * v 2 ^ 2 + k 7 * (v 0 * v 1) + k 8 * (v 1 * v 2) + k 9 * (v 2 * v 0)

theorem quadPoly_continuous (k : Fin 10 → ℝ) : Continuous (quadPoly k) := by
  unfold quadPoly
  fun_prop

theorem box_quad (w : Vec3) (hw : ∀ i, 0 ≤ w i) (k : Fin 10 → ℝ) :
    ∫ v in boxR w, quadPoly k v = 8 * w 0 * w 1 * w 2 * (k 0 + (k 4 * w 0 ^ 2 + k 5 * w 1 ^ 2 + k 6 * w 2 ^ 2) / 3) := by
  rw [box_slices w hw _ (quadPoly_continuous k)]
  have hz : ∀ x y : ℝ, ∫ z in (-w 2)..w 2, quadPoly k ![x, y, z] =
      2 * w 2 * (k 0 + k 1 * x + k 4 * x ^ 2 + k 6 * w 2 ^ 2 / 3) + 2 * w 2 * (k 2 + k 7 * x) * y + 2 * w 2 * k 5 * y ^ 2 + 0 * y ^ 3 + 0 * y ^ 4 + 0 * y ^ 5 := by
    intro x y
    have : (fun z => quadPoly k ![x, y, z]) = fun z => (k 0 + k 1 * x + k 2 * y + k 4 * x ^ 2 + k 5 * y ^ 2 + k 7 * (x * y)) + (k 3 + k 8 * y + k 9 * x) * z + k 6 * z ^ 2 + 0 * z ^ 3 + 0 * z ^ 4 + 0 * z ^ 5 := by
      ext z
      simp only [quadPoly, Matrix.cons_val_zero, Matrix.cons_val_one, Matrix.cons_val]
      ring
    rw [this, integral_poly]
    ring
  simp_rw [hz, integral_poly]
  have hy : (fun x : ℝ => 2 * w 2 * (k 0 + k 1 * x + k 4 * x ^ 2 + k 6 * w 2 ^ 2 / 3) * (w 1 - -w 1) + 2 * w 2 * (k 2 + k 7 * x) * (w 1 ^ 2 - (-w 1) ^ 2) / 2 + 2 * w 2 * k 5 * (w 1 ^ 3 - (-w 1) ^ 3) / 3 + 0 * (w 1 ^ 4 - (-w 1) ^ 4) / 4 + 0 * (w 1 ^ 5 - (-w 1) ^ 5) / 5 + 0 * (w 1 ^ 6 - (-w 1) ^ 6) / 6) =
      fun x => 4 * w 1 * w 2 * (k 0 + k 6 * w 2 ^ 2 / 3 + k 5 * w 1 ^ 2 / 3) + 4 * w 1 * w 2 * k 1 * x + 4 * w 1 * w 2 * k 4 * x ^ 2 + 0 * x ^ 3 + 0 * x ^ 4 + 0 * x ^ 5 := by
    ext x; ring
  rw [hy, integral_poly]
  ring

/-! ## The standard tetrahedron -/

/-- The tetrahedron with corners 0 and the unit vectors -/
def simplexR : Set Vec3 := {z | (∀ i, 0 ≤ z i) ∧ z 0 + z 1 + z 2 ≤ 1}

theorem simplexR_compact : IsCompact simplexR := by
  refine (isCompact_Icc (a := (0 : Vec3)) (b := 1)).of_isClosed_subset ?_ ?_
  · have : simplexR = (⋂ i, {z : Vec3 | 0 ≤ z i}) ∩ {z : Vec3 | z 0 + z 1 + z 2 ≤ 1} := by
      ext z; simp [simplexR]
    rw [this]
    exact (isClosed_iInter fun i => isClosed_le (by fun_prop) (by fun_prop)).inter (isClosed_le (by fun_prop) (by fun_prop))
  · rintro z ⟨h, hs⟩
    refine ⟨h, fun i => ?_⟩
    have h0 := h 0
    have h1 := h 1
    have h2 := h 2
    fin_cases i <;> simp <;> linarith

theorem simplex_slices (F : Vec3 → ℝ) (hF : Continuous F) :
    ∫ v in simplexR, F v = ∫ x in (0 : ℝ)..1, ∫ y in (0 : ℝ)..(1 - x), ∫ z in (0 : ℝ)..(1 - x - y), F ![x, y, z] := by
  refine integral_between3 simplexR simplexR_compact 0 1 (fun _ => 0) (fun x => 1 - x) (fun _ _ => 0) (fun x y => 1 - x - y)
    zero_le_one (fun x hx => by linarith [hx.2]) (fun x _ y hy => by linarith [hy.2]) (fun x y z => ?_) F hF
  constructor
  · rintro ⟨h, hs⟩
    have h0 : 0 ≤ x := h 0
    have h1 : 0 ≤ y := h 1
    have h2 : 0 ≤ z := h 2
    have hs : x + y + z ≤ 1 := hs
    exact ⟨⟨h0, by linarith⟩, ⟨h1, by linarith⟩, ⟨h2, by linarith⟩⟩
  · rintro ⟨h0, h1, h2⟩
    refine ⟨fun i => ?_, ?_⟩
    · fin_cases i
      · exact h0.1
      · exact h1.1
      · exact h2.1
    · show x + y + z ≤ 1
      linarith [h2.2]

theorem simplex_quad (k : Fin 10 → ℝ) :
    ∫ v in simplexR, quadPoly k v = k 0 / 6 + (k 1 + k 2 + k 3) / 24 + (k 4 + k 5 + k 6) / 60 + (k 7 + k 8 + k 9) / 120 := by
  rw [simplex_slices _ (quadPoly_continuous k)]
  have hz : ∀ x y : ℝ, ∫ z in (0 : ℝ)..(1 - x - y), quadPoly k ![x, y, z] =
      ((k 0 + k 1 * x + k 4 * x ^ 2) * (1 - x) + (k 3 + k 9 * x) * (1 - x) ^ 2 / 2 + k 6 * (1 - x) ^ 3 / 3) +
      (-(k 0 + k 1 * x + k 4 * x ^ 2) + (k 2 + k 7 * x) * (1 - x) - (k 3 + k 9 * x) * (1 - x) + k 8 * (1 - x) ^ 2 / 2 - k 6 * (1 - x) ^ 2) * y +
      (-(k 2 + k 7 * x) + k 5 * (1 - x) + (k 3 + k 9 * x) / 2 - k 8 * (1 - x) + k 6 * (1 - x)) * y ^ 2 +
      (-k 5 + k 8 / 2 - k 6 / 3) * y ^ 3 + 0 * y ^ 4 + 0 * y ^ 5 := by
    intro x y
    have : (fun z => quadPoly k ![x, y, z]) = fun z => (k 0 + k 1 * x + k 2 * y + k 4 * x ^ 2 + k 5 * y ^ 2 + k 7 * (x * y)) + (k 3 + k 8 * y + k 9 * x) * z + k 6 * z ^ 2 + 0 * z ^ 3 + 0 * z ^ 4 + 0 * z ^ 5 := by
      ext z
      simp only [quadPoly, Matrix.cons_val_zero, Matrix.cons_val_one, Matrix.cons_val]
      ring
    rw [this, integral_poly]
    ring
  simp_rw [hz, integral_poly]
  refine (intervalIntegral.integral_congr (g := fun x =>
    (k 0 / 2 + k 2 / 6 + k 3 / 6 + k 5 / 12 + k 6 / 12 + k 8 / 24) +
    (-k 0 + k 1 / 2 - k 2 / 2 - k 3 / 2 - k 5 / 3 - k 6 / 3 + k 7 / 6 - k 8 / 6 + k 9 / 6) * x +
    (k 0 / 2 - k 1 + k 2 / 2 + k 3 / 2 + k 4 / 2 + k 5 / 2 + k 6 / 2 - k 7 / 2 + k 8 / 4 - k 9 / 2) * x ^ 2 +
    (k 1 / 2 - k 2 / 6 - k 3 / 6 - k 4 - k 5 / 3 - k 6 / 3 + k 7 / 2 - k 8 / 6 + k 9 / 2) * x ^ 3 +
    (k 4 / 2 + k 5 / 12 + k 6 / 12 - k 7 / 6 + k 8 / 24 - k 9 / 6) * x ^ 4 + 0 * x ^ 5) fun x _ => ?_).trans ?_
  · simp only
    ring
  · rw [integral_poly]
    ring

/-! ## Tetrahedra -/

/-- The matrix with columns `a`, `b`, `c` -/
def columns3 (a b c : Vec3) : Mat3 := Matrix.of fun i j => ![a i, b i, c i] j

theorem columns3_mulVec (a b c x : Vec3) : (columns3 a b c).mulVec x = x 0 • a + x 1 • b + x 2 • c := by
  ext i
  simp only [columns3, Matrix.mulVec, dotProduct, Fin.sum_univ_three, Matrix.of_apply, Matrix.cons_val_zero, Matrix.cons_val_one, Matrix.cons_val,
    Pi.add_apply, Pi.smul_apply, smul_eq_mul]
  ring

/-- The affine map of the standard tetrahedron to another one -/
def tetraMap (p v0 v1 v2 : Vec3) (x : Vec3) : Vec3 := p + (columns3 (v0 - p) (v1 - p) (v2 - p)).mulVec x

theorem tetraMap_image (p v0 v1 v2 : Vec3) : tetraMap p v0 v1 v2 '' simplexR = convexHull ℝ {p, v0, v1, v2} := by
  have hval : ∀ x, tetraMap p v0 v1 v2 x = (1 - x 0 - x 1 - x 2) • p + x 0 • v0 + x 1 • v1 + x 2 • v2 := by
    intro x
    unfold tetraMap
    rw [columns3_mulVec]
    module
  apply Subset.antisymm
  · rintro _ ⟨x, ⟨hx, hs⟩, rfl⟩
    rw [hval]
    have hc := convex_convexHull ℝ ({p, v0, v1, v2} : Set Vec3)
    have hm := hc.sum_mem (t := Finset.univ) (w := ![1 - x 0 - x 1 - x 2, x 0, x 1, x 2]) (z := ![p, v0, v1, v2])
      (by
        intro i _
        fin_cases i
        · show 0 ≤ 1 - x 0 - x 1 - x 2
          linarith
        · exact hx 0
        · exact hx 1
        · exact hx 2)
      (by simp [Fin.sum_univ_four]; ring)
      (by
        intro i _
        apply subset_convexHull
        fin_cases i <;> simp)
    simp only [Fin.sum_univ_four, Matrix.cons_val_zero, Matrix.cons_val_one, Matrix.cons_val] at hm
    exact hm
  · refine convexHull_min ?_ ?_
    · rintro z (rfl | rfl | rfl | rfl)
      · exact ⟨0, ⟨fun i => le_refl _, by simp⟩, by rw [hval]; simp⟩
      · refine ⟨![1, 0, 0], ⟨fun i => by fin_cases i <;> simp, by simp⟩, by rw [hval]; simp⟩
      · refine ⟨![0, 1, 0], ⟨fun i => by fin_cases i <;> simp, by simp⟩, by rw [hval]; simp⟩
      · refine ⟨![0, 0, 1], ⟨fun i => by fin_cases i <;> simp, by simp⟩, by rw [hval]; simp⟩
    · rintro _ ⟨x, ⟨hx, hxs⟩, rfl⟩ _ ⟨y, ⟨hy, hys⟩, rfl⟩ a b ha hb hab
      refine ⟨a • x + b • y, ⟨fun i => ?_, ?_⟩, ?_⟩
      · exact add_nonneg (mul_nonneg ha (hx i)) (mul_nonneg hb (hy i))
      · simp only [Pi.add_apply, Pi.smul_apply, smul_eq_mul]
        nlinarith [mul_le_mul_of_nonneg_left hxs ha, mul_le_mul_of_nonneg_left hys hb]
      · unfold tetraMap
        rw [Matrix.mulVec_add, Matrix.mulVec_smul, Matrix.mulVec_smul]
        have : p = a • p + b • p := by rw [← add_smul, hab, one_smul]
        nth_rewrite 1 [this]
        module

theorem integral_tetra (p v0 v1 v2 : Vec3) (hd : (columns3 (v0 - p) (v1 - p) (v2 - p)).det ≠ 0) (F : Vec3 → ℝ) :
    ∫ x in convexHull ℝ {p, v0, v1, v2}, F x =
      |(columns3 (v0 - p) (v1 - p) (v2 - p)).det| * ∫ x in simplexR, F (tetraMap p v0 v1 v2 x) := by
  set A := columns3 (v0 - p) (v1 - p) (v2 - p) with hA
  have hder : ∀ x ∈ simplexR, HasFDerivWithinAt (tetraMap p v0 v1 v2) (LinearMap.toContinuousLinearMap (Matrix.toLin' A)) simplexR x := by
    intro x _
    have h : HasFDerivAt (fun x => p + (LinearMap.toContinuousLinearMap (Matrix.toLin' A)) x) (LinearMap.toContinuousLinearMap (Matrix.toLin' A)) x :=
      (LinearMap.toContinuousLinearMap (Matrix.toLin' A)).hasFDerivAt.const_add p
    exact h.hasFDerivWithinAt
  have hinj : InjOn (tetraMap p v0 v1 v2) simplexR := by
    intro x _ y _ h
    have h' : A.mulVec x = A.mulVec y := add_left_cancel h
    have := Matrix.mulVec_injective_of_isUnit ((Matrix.isUnit_iff_isUnit_det A).mpr (isUnit_iff_ne_zero.mpr hd))
    exact this h'
  rw [← tetraMap_image, integral_image_eq_integral_abs_det_fderiv_smul volume simplexR_compact.isClosed.measurableSet hder hinj]
  have hdet : (LinearMap.toContinuousLinearMap (Matrix.toLin' A)).det = A.det := by
    rw [ContinuousLinearMap.det, LinearMap.coe_toContinuousLinearMap, LinearMap.det_toLin']
  simp_rw [hdet, smul_eq_mul]
  rw [integral_const_mul]

/-- Integral of a polynomial of degree two over a tetrahedron, without the factor for its volume -/
noncomputable def tetraQuad (k : Fin 10 → ℝ) (p v0 v1 v2 : Vec3) : ℝ :=
  let s : Fin 3 → ℝ := fun i => p i + v0 i + v1 i + v2 i
  let q : Fin 3 → Fin 3 → ℝ := fun i j => p i * p j + v0 i * v0 j + v1 i * v1 j + v2 i * v2 j + s i * s j
  k 0 / 6 + (k 1 * s 0 + k 2 * s 1 + k 3 * s 2) / 24 +
    (k 4 * q 0 0 + k 5 * q 1 1 + k 6 * q 2 2 + k 7 * q 0 1 + k 8 * q 1 2 + k 9 * q 2 0) / 120

set_option maxHeartbeats 1000000 in
theorem simplex_tetra (k : Fin 10 → ℝ) (p v0 v1 v2 : Vec3) :
    ∫ x in simplexR, quadPoly k (tetraMap p v0 v1 v2 x) = tetraQuad k p v0 v1 v2 := by
  have hco : ∀ x i, tetraMap p v0 v1 v2 x i = p i + x 0 * (v0 i - p i) + x 1 * (v1 i - p i) + x 2 * (v2 i - p i) := by
    intro x i
    unfold tetraMap
    rw [columns3_mulVec]
    simp only [Pi.add_apply, Pi.smul_apply, Pi.sub_apply, smul_eq_mul]
    ring
  set a : Vec3 := fun i => v0 i - p i with ha
  set b : Vec3 := fun i => v1 i - p i with hb
  set c : Vec3 := fun i => v2 i - p i with hc
  have hpoly : ∀ x, quadPoly k (tetraMap p v0 v1 v2 x) = quadPoly
      ![k 0 + k 1 * p 0 + k 2 * p 1 + k 3 * p 2 + k 4 * p 0 ^ 2 + k 5 * p 1 ^ 2 + k 6 * p 2 ^ 2 + k 7 * (p 0 * p 1) + k 8 * (p 1 * p 2) + k 9 * (p 2 * p 0),
        k 1 * a 0 + k 2 * a 1 + k 3 * a 2 + 2 * k 4 * p 0 * a 0 + 2 * k 5 * p 1 * a 1 + 2 * k 6 * p 2 * a 2 + k 7 * (p 0 * a 1 + a 0 * p 1) + k 8 * (p 1 * a 2 + a 1 * p 2) + k 9 * (p 2 * a 0 + a 2 * p 0),
        k 1 * b 0 + k 2 * b 1 + k 3 * b 2 + 2 * k 4 * p 0 * b 0 + 2 * k 5 * p 1 * b 1 + 2 * k 6 * p 2 * b 2 + k 7 * (p 0 * b 1 + b 0 * p 1) + k 8 * (p 1 * b 2 + b 1 * p 2) + k 9 * (p 2 * b 0 + b 2 * p 0),
        k 1 * c 0 + k 2 * c 1 + k 3 * c 2 + 2 * k 4 * p 0 * c 0 + 2 * k 5 * p 1 * c 1 + 2 * k 6 * p 2 * c 2 + k 7 * (p 0 * c 1 + c 0 * p 1) + k 8 * (p 1 * c 2 + c 1 * p 2) + k 9 * (p 2 * c 0 + c 2 * p 0),
        k 4 * a 0 ^ 2 + k 5 * a 1 ^ 2 + k 6 * a 2 ^ 2 + k 7 * (a 0 * a 1) + k 8 * (a 1 * a 2) + k 9 * (a 2 * a 0),
        k 4 * b 0 ^ 2 + k 5 * b 1 ^ 2 + k 6 * b 2 ^ 2 + k 7 * (b 0 * b 1) + k 8 * (b 1 * b 2) + k 9 * (b 2 * b 0),
        k 4 * c 0 ^ 2 + k 5 * c 1 ^ 2 + k 6 * c 2 ^ 2 + k 7 * (c 0 * c 1) + k 8 * (c 1 * c 2) + k 9 * (c 2 * c 0),
        2 * k 4 * a 0 * b 0 + 2 * k 5 * a 1 * b 1 + 2 * k 6 * a 2 * b 2 + k 7 * (a 0 * b 1 + b 0 * a 1) + k 8 * (a 1 * b 2 + b 1 * a 2) + k 9 * (a 2 * b 0 + b 2 * a 0),
        2 * k 4 * b 0 * c 0 + 2 * k 5 * b 1 * c 1 + 2 * k 6 * b 2 * c 2 + k 7 * (b 0 * c 1 + c 0 * b 1) + k 8 * (b 1 * c 2 + c 1 * b 2) + k 9 * (b 2 * c 0 + c 2 * b 0),
        2 * k 4 * c 0 * a 0 + 2 * k 5 * c 1 * a 1 + 2 * k 6 * c 2 * a 2 + k 7 * (c 0 * a 1 + a 0 * c 1) + k 8 * (c 1 * a 2 + a 1 * c 2) + k 9 * (c 2 * a 0 + a 2 * c 0)] x := by
    intro x
    simp only [quadPoly, hco, Matrix.cons_val_zero, Matrix.cons_val_one, Matrix.cons_val, ha, hb, hc]
    ring
  simp_rw [hpoly]
  rw [simplex_quad]
  simp only [tetraQuad, Matrix.cons_val_zero, Matrix.cons_val_one, Matrix.cons_val, ha, hb, hc]
  ring

end Scisim
