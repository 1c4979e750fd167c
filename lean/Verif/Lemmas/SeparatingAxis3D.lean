import Verif.Model.BoxBox3D
import Mathlib.Analysis.Convex.KreinMilman
import Mathlib.Analysis.Normed.Lp.PiLp
import Mathlib.Analysis.InnerProductSpace.PiL2
import Mathlib.LinearAlgebra.Matrix.ToLinearEquiv
import Mathlib.LinearAlgebra.CrossProduct
import Mathlib.LinearAlgebra.Matrix.DotProduct
import Mathlib.Tactic.LinearCombination
import Mathlib.Tactic.Linarith
import Mathlib.Tactic.FinCases

/-! The theorem of the separating axis for two boxes in space: fifteen axes decide. -/

namespace Scisim

open Matrix Topology

/-- The length of a vector -/
noncomputable def len3 (f : Vec3) : ℝ := ‖(WithLp.toLp 2 f : EuclideanSpace ℝ (Fin 3))‖

theorem len3_sq (f : Vec3) : len3 f ^ 2 = f ⬝ᵥ f := by
  rw [len3, EuclideanSpace.norm_sq_eq]
  simp [dotProduct, Fin.sum_univ_three]
  ring

theorem len3_nonneg (f : Vec3) : 0 ≤ len3 f := norm_nonneg _
theorem len3_smul (c : ℝ) (f : Vec3) : len3 (c • f) = |c| * len3 f := by
  rw [len3, WithLp.toLp_smul, norm_smul, Real.norm_eq_abs]; rfl
theorem len3_add (f g : Vec3) : len3 (f + g) ≤ len3 f + len3 g := by
  rw [len3, WithLp.toLp_add]; exact norm_add_le _ _
theorem len3_continuous : Continuous len3 := by
  unfold len3
  exact continuous_norm.comp (PiLp.continuous_toLp 2 _)
theorem len3_eq_sqrt (f : Vec3) : len3 f = Real.sqrt (f ⬝ᵥ f) := by
  rw [← len3_sq, Real.sqrt_sq (len3_nonneg f)]

/-- Three vectors of length one at right angles -/
structure Frame (u : Fin 3 → Vec3) : Prop where
  ortho : ∀ i j, u i ⬝ᵥ u j = if i = j then 1 else 0
  expand : ∀ f : Vec3, f = (f ⬝ᵥ u 0) • u 0 + (f ⬝ᵥ u 1) • u 1 + (f ⬝ᵥ u 2) • u 2

theorem frame_of_orthogonal {R : Mat3} (h : R.transpose * R = 1) : Frame R.column where
  ortho i j := by
    have := congrFun (congrFun h i) j
    rw [Matrix.mul_apply] at this
    simp only [transpose_apply, Matrix.one_apply] at this
    rw [← this]
    rfl
  expand f := by
    have h' : R * R.transpose = 1 := mul_eq_one_comm.mp h
    have e : f = R *ᵥ (R.transpose *ᵥ f) := by rw [mulVec_mulVec, h', one_mulVec]
    conv_lhs => rw [e]
    funext i
    simp only [mulVec, dotProduct, Fin.sum_univ_three, transpose_apply, Mat3.column, Pi.add_apply, Pi.smul_apply, smul_eq_mul]
    ring

/-- How far a box with the axes `u` and half widths `s` reaches in the direction `f` from its centre -/
def reach (u : Fin 3 → Vec3) (s f : Vec3) : ℝ := s 0 * |f ⬝ᵥ u 0| + s 1 * |f ⬝ᵥ u 1| + s 2 * |f ⬝ᵥ u 2|

theorem reach_smul (u : Fin 3 → Vec3) (s : Vec3) (c : ℝ) (f : Vec3) : reach u s (c • f) = |c| * reach u s f := by
  simp only [reach, smul_dotProduct, smul_eq_mul, abs_mul]; ring

theorem exists_orthogonal (a b : Vec3) : ∃ d : Vec3, d ≠ 0 ∧ d ⬝ᵥ a = 0 ∧ d ⬝ᵥ b = 0 := by
  have hdet : (Matrix.of ![a, b, 0] : Mat3).det = 0 := by
    rw [det_fin_three]; simp
  obtain ⟨d, hd, h⟩ := Matrix.exists_mulVec_eq_zero_iff.mpr hdet
  refine ⟨d, hd, ?_, ?_⟩
  · have := congrFun h 0
    simp only [mulVec, Matrix.of_apply, cons_val_zero, Pi.zero_apply] at this
    rw [dotProduct_comm]; exact this
  · have := congrFun h 1
    simp only [mulVec, Matrix.of_apply, cons_val_one, cons_val_zero, Pi.zero_apply] at this
    rw [dotProduct_comm]; exact this

theorem along_cross {g a b : Vec3} (ha : g ⬝ᵥ a = 0) (hb : g ⬝ᵥ b = 0) (hne : crossProduct a b ≠ 0) : ∃ c : ℝ, g = c • crossProduct a b := by
  set n := crossProduct a b with hn
  have hnn : n ⬝ᵥ n ≠ 0 := fun h => hne (dotProduct_self_eq_zero.mp h)
  refine ⟨(g ⬝ᵥ n) / (n ⬝ᵥ n), ?_⟩
  have key : (n ⬝ᵥ n) • g = (g ⬝ᵥ n) • n := by
    have n0 : n 0 = a 1 * b 2 - a 2 * b 1 := by rw [hn, cross_apply]; rfl
    have n1 : n 1 = a 2 * b 0 - a 0 * b 2 := by rw [hn, cross_apply]; rfl
    have n2 : n 2 = a 0 * b 1 - a 1 * b 0 := by rw [hn, cross_apply]; rfl
    simp only [dotProduct, Fin.sum_univ_three] at ha hb ⊢
    funext k
    fin_cases k
    · simp only [Fin.zero_eta, Pi.smul_apply, smul_eq_mul, n0, n1, n2]
      linear_combination ((a 2 * b 0 - a 0 * b 2) * a 2 - (a 0 * b 1 - a 1 * b 0) * a 1) * hb - ((a 2 * b 0 - a 0 * b 2) * b 2 - (a 0 * b 1 - a 1 * b 0) * b 1) * ha
    · simp only [Fin.mk_one, Pi.smul_apply, smul_eq_mul, n0, n1, n2]
      linear_combination ((a 0 * b 1 - a 1 * b 0) * a 0 - (a 1 * b 2 - a 2 * b 1) * a 2) * hb - ((a 0 * b 1 - a 1 * b 0) * b 0 - (a 1 * b 2 - a 2 * b 1) * b 2) * ha
    · simp only [Fin.reduceFinMk, Pi.smul_apply, smul_eq_mul, n0, n1, n2]
      linear_combination ((a 1 * b 2 - a 2 * b 1) * a 1 - (a 2 * b 0 - a 0 * b 2) * a 0) * hb - ((a 1 * b 2 - a 2 * b 1) * b 1 - (a 2 * b 0 - a 0 * b 2) * b 0) * ha
  rw [div_eq_inv_mul, mul_smul, ← key, smul_smul, inv_mul_cancel₀ hnn, one_smul]

/-- **The theorem of the separating axis, with a margin.** When two boxes overlap by `ρ` along the axes of both and along the cross products of their axes,
they overlap by `ρ` in every direction. -/
theorem sat15 {u v : Fin 3 → Vec3} (hu : Frame u) (hv : Frame v) (s s' p : Vec3) (ρ : ℝ) (hρ : 0 ≤ ρ)
    (h1 : ∀ i, ρ ≤ reach u s (u i) + reach v s' (u i) - |u i ⬝ᵥ p|)
    (h2 : ∀ j, ρ ≤ reach u s (v j) + reach v s' (v j) - |v j ⬝ᵥ p|)
    (h3 : ∀ i j, ρ * len3 (crossProduct (u i) (v j)) ≤ reach u s (crossProduct (u i) (v j)) + reach v s' (crossProduct (u i) (v j)) -
      |crossProduct (u i) (v j) ⬝ᵥ p|) (f : Vec3) :
    ρ * len3 f ≤ reach u s f + reach v s' f - f ⬝ᵥ p := by
  -- signs
  obtain ⟨σ, hσ⟩ : ∃ σ : Fin 3 → ℝ, ∀ i, (σ i = 1 ∨ σ i = -1) ∧ σ i * (f ⬝ᵥ u i) = |f ⬝ᵥ u i| := by
    refine ⟨fun i => if 0 ≤ f ⬝ᵥ u i then 1 else -1, fun i => ?_⟩
    by_cases h : 0 ≤ f ⬝ᵥ u i
    · simp [h, abs_of_nonneg h]
    · simp [h, abs_of_neg (not_le.mp h)]
  obtain ⟨τ, hτ⟩ : ∃ τ : Fin 3 → ℝ, ∀ j, (τ j = 1 ∨ τ j = -1) ∧ τ j * (f ⬝ᵥ v j) = |f ⬝ᵥ v j| := by
    refine ⟨fun i => if 0 ≤ f ⬝ᵥ v i then 1 else -1, fun i => ?_⟩
    by_cases h : 0 ≤ f ⬝ᵥ v i
    · simp [h, abs_of_nonneg h]
    · simp [h, abs_of_neg (not_le.mp h)]
  have habs : ∀ (c x : ℝ), (c = 1 ∨ c = -1) → 0 ≤ c * x → |x| = c * x := by
    intro c x hc hx
    rcases hc with rfl | rfl
    · rw [one_mul] at hx ⊢; exact abs_of_nonneg hx
    · have : x ≤ 0 := by linarith
      rw [abs_of_nonpos this]; ring
  -- the linear function that agrees with the overlap on the cone
  let Λ : Vec3 → ℝ := fun g => s 0 * (σ 0 * (g ⬝ᵥ u 0)) + s 1 * (σ 1 * (g ⬝ᵥ u 1)) + s 2 * (σ 2 * (g ⬝ᵥ u 2)) +
    (s' 0 * (τ 0 * (g ⬝ᵥ v 0)) + s' 1 * (τ 1 * (g ⬝ᵥ v 1)) + s' 2 * (τ 2 * (g ⬝ᵥ v 2))) - g ⬝ᵥ p
  let C : Set Vec3 := {g | (∀ i, 0 ≤ σ i * (g ⬝ᵥ u i)) ∧ ∀ j, 0 ≤ τ j * (g ⬝ᵥ v j)}
  have hΛ : ∀ g ∈ C, Λ g = reach u s g + reach v s' g - g ⬝ᵥ p := by
    intro g hg
    simp only [Λ, reach]
    rw [habs _ _ (hσ 0).1 (hg.1 0), habs _ _ (hσ 1).1 (hg.1 1), habs _ _ (hσ 2).1 (hg.1 2), habs _ _ (hτ 0).1 (hg.2 0), habs _ _ (hτ 1).1 (hg.2 1),
      habs _ _ (hτ 2).1 (hg.2 2)]
  have hdot : ∀ w : Vec3, Continuous fun g : Vec3 => g ⬝ᵥ w := by
    intro w
    simp only [dotProduct, Fin.sum_univ_three]
    fun_prop
  let e : Vec3 := σ 0 • u 0 + σ 1 • u 1 + σ 2 • u 2
  have he : ∀ g : Vec3, g ⬝ᵥ e = σ 0 * (g ⬝ᵥ u 0) + σ 1 * (g ⬝ᵥ u 1) + σ 2 * (g ⬝ᵥ u 2) := by
    intro g; simp only [e, dotProduct_add, dotProduct_smul, smul_eq_mul]
  let K : Set Vec3 := {g | g ∈ C ∧ g ⬝ᵥ e = 1}
  let S : Set Vec3 := {g | ρ * len3 g ≤ Λ g}
  have hCconv : Convex ℝ C := by
    intro x hx y hy a b ha hb _
    refine ⟨fun i => ?_, fun j => ?_⟩
    · rw [add_dotProduct, smul_dotProduct, smul_dotProduct, smul_eq_mul, smul_eq_mul]
      nlinarith [mul_nonneg ha (hx.1 i), mul_nonneg hb (hy.1 i)]
    · rw [add_dotProduct, smul_dotProduct, smul_dotProduct, smul_eq_mul, smul_eq_mul]
      nlinarith [mul_nonneg ha (hx.2 j), mul_nonneg hb (hy.2 j)]
  have hKconv : Convex ℝ K := by
    intro x hx y hy a b ha hb hab
    refine ⟨hCconv hx.1 hy.1 ha hb hab, ?_⟩
    rw [add_dotProduct, smul_dotProduct, smul_dotProduct, hx.2, hy.2, smul_eq_mul, smul_eq_mul, mul_one, mul_one, hab]
  have hCclosed : IsClosed C := by
    have : C = (⋂ i, {g : Vec3 | 0 ≤ σ i * (g ⬝ᵥ u i)}) ∩ ⋂ j, {g : Vec3 | 0 ≤ τ j * (g ⬝ᵥ v j)} := by
      ext g; simp [C]
    rw [this]
    exact (isClosed_iInter fun i => isClosed_le continuous_const (continuous_const.mul (hdot _))).inter
      (isClosed_iInter fun i => isClosed_le continuous_const (continuous_const.mul (hdot _)))
  have hKcomp : IsCompact K := by
    have hcl : IsClosed K := hCclosed.inter (isClosed_eq (hdot e) continuous_const)
    refine Metric.isCompact_of_isClosed_isBounded hcl ?_
    rw [isBounded_iff_forall_norm_le]
    refine ⟨‖u 0‖ + ‖u 1‖ + ‖u 2‖, fun g hg => ?_⟩
    have hb : ∀ i, |g ⬝ᵥ u i| ≤ 1 := by
      have h0 := hg.1.1 0
      have h1 := hg.1.1 1
      have h2 := hg.1.1 2
      have h3 := hg.2
      rw [he] at h3
      intro i
      rw [habs _ _ (hσ i).1 (hg.1.1 i)]
      fin_cases i <;> simp <;> linarith
    rw [hu.expand g]
    refine le_trans (norm_add₃_le) ?_
    rw [norm_smul, norm_smul, norm_smul, Real.norm_eq_abs, Real.norm_eq_abs, Real.norm_eq_abs]
    have n0 := mul_le_mul_of_nonneg_right (hb 0) (norm_nonneg (u 0))
    have n1 := mul_le_mul_of_nonneg_right (hb 1) (norm_nonneg (u 1))
    have n2 := mul_le_mul_of_nonneg_right (hb 2) (norm_nonneg (u 2))
    linarith
  have hΛlin : ∀ (x y : Vec3) (a b : ℝ), Λ (a • x + b • y) = a * Λ x + b * Λ y := by
    intro x y a b
    simp only [Λ, add_dotProduct, smul_dotProduct, smul_eq_mul]; ring
  have hSconv : Convex ℝ S := by
    intro x hx y hy a b ha hb hab
    change ρ * len3 (a • x + b • y) ≤ Λ (a • x + b • y)
    rw [hΛlin]
    have h1 := len3_add (a • x) (b • y)
    rw [len3_smul, len3_smul, abs_of_nonneg ha, abs_of_nonneg hb] at h1
    have hx' : ρ * len3 x ≤ Λ x := hx
    have hy' : ρ * len3 y ≤ Λ y := hy
    have h2 := mul_le_mul_of_nonneg_left h1 hρ
    have h3 := mul_le_mul_of_nonneg_left hx' ha
    have h4 := mul_le_mul_of_nonneg_left hy' hb
    linarith
  have hΛcont : Continuous Λ := by
    simp only [Λ]
    have := hdot
    fun_prop
  have hSclosed : IsClosed S := isClosed_le (continuous_const.mul len3_continuous) hΛcont
  -- the extreme points of the slice are multiples of the fifteen axes
  have hext : K.extremePoints ℝ ⊆ S := by
    intro g hg
    have hgK : g ∈ K := hg.1
    change ρ * len3 g ≤ Λ g
    rw [hΛ g hgK.1]
    have haxis : ∀ (c : ℝ) (a : Vec3), ρ * len3 a ≤ reach u s a + reach v s' a - |a ⬝ᵥ p| → g = c • a → ρ * len3 g ≤ reach u s g + reach v s' g - g ⬝ᵥ p := by
      intro c a ha hga
      rw [hga, len3_smul, reach_smul, reach_smul, smul_dotProduct, smul_eq_mul]
      have h1 := mul_le_mul_of_nonneg_left ha (abs_nonneg c)
      have h2 : c * (a ⬝ᵥ p) ≤ |c| * |a ⬝ᵥ p| := by rw [← abs_mul]; exact le_abs_self _
      linarith
    have hlen : ∀ {w : Fin 3 → Vec3}, Frame w → ∀ i, len3 (w i) = 1 := by
      intro w hw i
      rw [len3_eq_sqrt, hw.ortho i i, if_pos rfl, Real.sqrt_one]
    have htwo : ∀ {w : Fin 3 → Vec3}, Frame w → (∀ i, ρ ≤ reach u s (w i) + reach v s' (w i) - |w i ⬝ᵥ p|) →
        ∀ i j, i ≠ j → g ⬝ᵥ w i = 0 → g ⬝ᵥ w j = 0 → ρ * len3 g ≤ reach u s g + reach v s' g - g ⬝ᵥ p := by
      intro w hw hw2 i j hij hi hj
      obtain ⟨k, hk⟩ : ∃ k, g = (g ⬝ᵥ w k) • w k := by
        have hx := hw.expand g
        fin_cases i <;> fin_cases j <;> simp at hij hi hj <;> simp only [hi, hj, zero_smul, zero_add, add_zero] at hx
        · exact ⟨2, hx⟩
        · exact ⟨1, hx⟩
        · exact ⟨2, hx⟩
        · exact ⟨0, hx⟩
        · exact ⟨1, hx⟩
        · exact ⟨0, hx⟩
      exact haxis _ (w k) (by rw [hlen hw k, mul_one]; exact hw2 k) hk
    by_contra hcon
    have hu1 : ∀ i j, g ⬝ᵥ u i = 0 → g ⬝ᵥ u j = 0 → i = j := fun i j hi hj => by
      by_contra hij; exact hcon (htwo hu h1 i j hij hi hj)
    have hv1 : ∀ i j, g ⬝ᵥ v i = 0 → g ⬝ᵥ v j = 0 → i = j := fun i j hi hj => by
      by_contra hij; exact hcon (htwo hv h2 i j hij hi hj)
    have huv : ∀ i j, g ⬝ᵥ u i = 0 → g ⬝ᵥ v j = 0 → crossProduct (u i) (v j) = 0 := fun i j hi hj => by
      by_contra hc
      obtain ⟨c, hgc⟩ := along_cross hi hj hc
      exact hcon (haxis c _ (h3 i j) hgc)
    -- one direction orthogonal to all that is tight
    obtain ⟨d, hd0, hde, hdu, hdv⟩ : ∃ d : Vec3, d ≠ 0 ∧ d ⬝ᵥ e = 0 ∧ (∀ i, g ⬝ᵥ u i = 0 → d ⬝ᵥ u i = 0) ∧ ∀ j, g ⬝ᵥ v j = 0 → d ⬝ᵥ v j = 0 := by
      by_cases hex : ∃ i, g ⬝ᵥ u i = 0
      · obtain ⟨i, hi⟩ := hex
        obtain ⟨d, hd0, hde, hdi⟩ := exists_orthogonal e (u i)
        refine ⟨d, hd0, hde, fun k hk => by rw [hu1 k i hk hi]; exact hdi, fun j hj => ?_⟩
        have hc := huv i j hi hj
        -- v j is a multiple of u i
        have hpar : v j = (v j ⬝ᵥ u i) • u i := by
          have h0 := congrFun hc 0
          have h1 := congrFun hc 1
          have h2 := congrFun hc 2
          rw [cross_apply] at h0 h1 h2
          simp at h0 h1 h2
          have hn := hu.ortho i i
          simp only [if_true, dotProduct, Fin.sum_univ_three] at hn
          funext k
          simp only [Pi.smul_apply, smul_eq_mul, dotProduct, Fin.sum_univ_three]
          fin_cases k
          · simp only [Fin.zero_eta]
            linear_combination (-(v j 0)) * hn + (u i 2) * h1 - (u i 1) * h2
          · simp only [Fin.mk_one]
            linear_combination (-(v j 1)) * hn + (u i 0) * h2 - (u i 2) * h0
          · simp only [Fin.reduceFinMk]
            linear_combination (-(v j 2)) * hn + (u i 1) * h0 - (u i 0) * h1
        rw [hpar, dotProduct_smul, hdi, smul_zero]
      · push Not at hex
        by_cases hex' : ∃ j, g ⬝ᵥ v j = 0
        · obtain ⟨j, hj⟩ := hex'
          obtain ⟨d, hd0, hde, hdj⟩ := exists_orthogonal e (v j)
          exact ⟨d, hd0, hde, fun i hi => absurd hi (hex i), fun k hk => by rw [hv1 k j hk hj]; exact hdj⟩
        · push Not at hex'
          obtain ⟨d, hd0, hde, _⟩ := exists_orthogonal e e
          exact ⟨d, hd0, hde, fun i hi => absurd hi (hex i), fun j hj => absurd hj (hex' j)⟩
    -- a small step in both directions stays in the slice
    have hnear : ∀ᶠ t in 𝓝 (0 : ℝ), g + t • d ∈ C := by
      have hone : ∀ (c : ℝ) (w : Vec3), 0 ≤ c * (g ⬝ᵥ w) → (c = 1 ∨ c = -1) → (g ⬝ᵥ w = 0 → d ⬝ᵥ w = 0) → ∀ᶠ t in 𝓝 (0 : ℝ), 0 ≤ c * ((g + t • d) ⬝ᵥ w) := by
        intro c w hc hc1 hw
        by_cases hz : g ⬝ᵥ w = 0
        · refine Filter.Eventually.of_forall fun t => ?_
          rw [add_dotProduct, smul_dotProduct, hw hz, hz]; simp
        · have hpos : 0 < c * (g ⬝ᵥ w) := lt_of_le_of_ne hc (Ne.symm (mul_ne_zero (by rcases hc1 with rfl | rfl <;> norm_num) hz))
          have hcont : Continuous fun t : ℝ => c * ((g + t • d) ⬝ᵥ w) := by
            simp only [add_dotProduct, smul_dotProduct, smul_eq_mul]; fun_prop
          have h0 : 0 < c * ((g + (0 : ℝ) • d) ⬝ᵥ w) := by simpa using hpos
          exact (hcont.continuousAt.eventually (lt_mem_nhds h0)).mono fun t ht => le_of_lt ht
      have hall1 : ∀ᶠ t in 𝓝 (0 : ℝ), ∀ i, 0 ≤ σ i * ((g + t • d) ⬝ᵥ u i) :=
        Filter.eventually_all.mpr fun i => hone _ _ (hgK.1.1 i) (hσ i).1 (hdu i)
      have hall2 : ∀ᶠ t in 𝓝 (0 : ℝ), ∀ j, 0 ≤ τ j * ((g + t • d) ⬝ᵥ v j) :=
        Filter.eventually_all.mpr fun j => hone _ _ (hgK.1.2 j) (hτ j).1 (hdv j)
      filter_upwards [hall1, hall2] with t ht1 ht2
      exact ⟨ht1, ht2⟩
    obtain ⟨δ, hδ, hball⟩ := Metric.eventually_nhds_iff.mp hnear
    have hmem : ∀ t : ℝ, |t| < δ → g + t • d ∈ K := by
      intro t ht
      refine ⟨hball (by rw [Real.dist_eq, sub_zero]; exact ht), ?_⟩
      rw [add_dotProduct, smul_dotProduct, hde, hgK.2, smul_zero, add_zero]
    have hp1 := hmem (δ / 2) (by rw [abs_of_pos (by linarith)]; linarith)
    have hp2 := hmem (-(δ / 2)) (by rw [abs_neg, abs_of_pos (by linarith)]; linarith)
    have hseg : g ∈ openSegment ℝ (g + (δ / 2) • d) (g + (-(δ / 2)) • d) := by
      refine ⟨1 / 2, 1 / 2, by norm_num, by norm_num, by norm_num, ?_⟩
      funext k
      simp only [Pi.add_apply, Pi.smul_apply, smul_eq_mul]; ring
    have := hg.2 hp1 hp2 hseg
    apply hd0
    have h4 : (δ / 2) • d = 0 := by simpa using this
    rcases smul_eq_zero.mp h4 with h5 | h5
    · linarith
    · exact h5
  have hKS : K ⊆ S := by
    rw [← closure_convexHull_extremePoints hKcomp hKconv]
    exact closure_minimal (convexHull_min hext hSconv) hSclosed
  -- back to `f`
  have hfC : f ∈ C := ⟨fun i => by rw [(hσ i).2]; exact abs_nonneg _, fun j => by rw [(hτ j).2]; exact abs_nonneg _⟩
  by_cases hf0 : f = 0
  · subst hf0
    have : len3 0 = 0 := by simp [len3]
    rw [this]; simp [reach]
  have hsum : 0 < f ⬝ᵥ e := by
    rw [he, (hσ 0).2, (hσ 1).2, (hσ 2).2]
    by_contra hc
    have h0 := abs_nonneg (f ⬝ᵥ u 0)
    have h1 := abs_nonneg (f ⬝ᵥ u 1)
    have h2 := abs_nonneg (f ⬝ᵥ u 2)
    apply hf0
    rw [hu.expand f, abs_eq_zero.mp (show |f ⬝ᵥ u 0| = 0 by linarith), abs_eq_zero.mp (show |f ⬝ᵥ u 1| = 0 by linarith),
      abs_eq_zero.mp (show |f ⬝ᵥ u 2| = 0 by linarith)]
    simp
  have hmem : (f ⬝ᵥ e)⁻¹ • f ∈ K := by
    refine ⟨⟨fun i => ?_, fun j => ?_⟩, ?_⟩
    · rw [smul_dotProduct, smul_eq_mul, mul_left_comm]; exact mul_nonneg (inv_nonneg.mpr hsum.le) (hfC.1 i)
    · rw [smul_dotProduct, smul_eq_mul, mul_left_comm]; exact mul_nonneg (inv_nonneg.mpr hsum.le) (hfC.2 j)
    · rw [smul_dotProduct, smul_eq_mul, inv_mul_cancel₀ hsum.ne']
  have h4 : ρ * len3 ((f ⬝ᵥ e)⁻¹ • f) ≤ Λ ((f ⬝ᵥ e)⁻¹ • f) := hKS hmem
  have h5 : Λ ((f ⬝ᵥ e)⁻¹ • f) = (f ⬝ᵥ e)⁻¹ * Λ f := by have := hΛlin f 0 (f ⬝ᵥ e)⁻¹ 0; simpa using this
  rw [h5, len3_smul, abs_of_pos (inv_pos.mpr hsum), mul_left_comm] at h4
  have h6 := le_of_mul_le_mul_left h4 (inv_pos.mpr hsum)
  rw [hΛ f hfC] at h6
  exact h6

end Scisim
