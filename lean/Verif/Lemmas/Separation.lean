import Mathlib.Analysis.InnerProductSpace.PiL2
import Mathlib.Analysis.Normed.Module.Ball.Pointwise
import Mathlib.Tactic.FieldSimp
import Mathlib.Tactic.LinearCombination
/-!
# The least distance by which a ball must be moved to separate it from another ball, a half space, or the outside of a cylinder
-/

namespace Scisim

open Metric

variable {E : Type} [NormedAddCommGroup E] [InnerProductSpace ℝ E]

omit [InnerProductSpace ℝ E] in
/-- What all three cases have in common: moving by `t` separates exactly if the clearance is at least the radius, the clearance grows at most by the length of
`t`, and there is a way to make it grow as fast as that. -/
theorem least_separation {sep : E → Prop} {clear : E → ℝ} {r : ℝ} (hsep : ∀ t, sep t ↔ r ≤ clear t) (hgrow : ∀ t, clear t ≤ clear 0 + ‖t‖)
    (hreach : clear 0 < r → ∃ t, ‖t‖ = r - clear 0 ∧ r ≤ clear t) : IsLeast {e | 0 ≤ e ∧ ∃ t, ‖t‖ = e ∧ sep t} (-(min 0 (clear 0 - r))) := by
  rcases lt_or_ge (clear 0) r with h | h
  · rw [min_eq_right (by linarith)]
    constructor
    · obtain ⟨t, h1, h2⟩ := hreach h
      exact ⟨by linarith, t, by linarith, (hsep t).mpr h2⟩
    · rintro e ⟨_, t, rfl, ht⟩
      have h1 := (hsep t).mp ht
      have h2 := hgrow t
      linarith
  · rw [min_eq_left (by linarith), neg_zero]
    exact ⟨⟨le_refl _, 0, norm_zero, (hsep 0).mpr h⟩, fun e he => he.1⟩

theorem least_separation_balls [Nontrivial E] (x y : E) {a b : ℝ} (ha : 0 < a) (hb : 0 < b) :
    IsLeast {e | 0 ≤ e ∧ ∃ t, ‖t‖ = e ∧ Disjoint (ball (x + t) a) (ball y b)} (-(min 0 (‖x - y‖ - a - b))) := by
  have h := least_separation (sep := fun t => Disjoint (ball (x + t) a) (ball y b)) (clear := fun t => ‖x + t - y‖) (r := a + b) ?_ ?_ ?_
  · simpa [sub_sub] using h
  · intro t
    rw [disjoint_ball_ball_iff ha hb, dist_eq_norm]
  · intro t
    simp only [add_zero]
    rw [show x + t - y = (x - y) + t by abel]
    exact norm_add_le _ _
  · simp only [add_zero]
    intro hlt
    by_cases hxy : x - y = 0
    · obtain ⟨w, hw⟩ := exists_norm_eq E (show (0 : ℝ) ≤ a + b by linarith)
      refine ⟨w, by rw [hw, hxy, norm_zero, sub_zero], ?_⟩
      rw [show x + w - y = (x - y) + w by abel, hxy, zero_add, hw]
    · have hpos : 0 < ‖x - y‖ := norm_pos_iff.mpr hxy
      refine ⟨((a + b - ‖x - y‖) / ‖x - y‖) • (x - y), ?_, ?_⟩
      · rw [norm_smul, Real.norm_eq_abs, abs_of_nonneg (div_nonneg (by linarith) hpos.le)]
        field_simp
      · rw [show x + ((a + b - ‖x - y‖) / ‖x - y‖) • (x - y) - y = ((a + b) / ‖x - y‖) • (x - y) from by
          rw [sub_div, div_self hpos.ne', sub_smul, one_smul]
          abel, norm_smul, Real.norm_eq_abs, abs_of_nonneg (div_nonneg (by linarith) hpos.le)]
        field_simp
        exact le_refl _

theorem least_separation_half (x p n : E) (hn : ‖n‖ = 1) {r : ℝ} (hr : 0 < r) :
    IsLeast {e | 0 ≤ e ∧ ∃ t, ‖t‖ = e ∧ Disjoint (ball (x + t) r) {z | inner ℝ n (z - p) < 0}} (-(min 0 (inner ℝ n (x - p) - r))) := by
  have hnn : inner ℝ n n = (1 : ℝ) := by rw [real_inner_self_eq_norm_sq, hn, one_pow]
  have h := least_separation (sep := fun t => Disjoint (ball (x + t) r) {z | inner ℝ n (z - p) < 0}) (clear := fun t => inner ℝ n (x + t - p)) (r := r) ?_ ?_ ?_
  · simpa using h
  · intro t
    rw [Set.disjoint_left]
    constructor
    · intro h
      by_contra hlt
      push Not at hlt
      set c : ℝ := inner ℝ n (x + t - p) with hc
      obtain ⟨l, h0, h1, h2⟩ : ∃ l : ℝ, 0 ≤ l ∧ l < r ∧ c < l := by
        rcases lt_or_ge c 0 with h | h
        · exact ⟨0, le_refl _, hr, h⟩
        · exact ⟨(c + r) / 2, by linarith, by linarith, by linarith⟩
      refine h (a := x + t - l • n) ?_ ?_
      · rw [mem_ball, dist_eq_norm, sub_sub_cancel_left, norm_neg, norm_smul, hn, mul_one, Real.norm_eq_abs, abs_of_nonneg h0]
        exact h1
      · simp only [Set.mem_ofPred_eq]
        rw [show x + t - l • n - p = (x + t - p) - l • n by abel, inner_sub_right, inner_smul_right, hnn, ← hc]
        linarith
    · intro h z hz hneg
      simp only [Set.mem_ofPred_eq] at hneg
      rw [mem_ball, dist_eq_norm] at hz
      have h1 := real_inner_le_norm n (x + t - z)
      rw [hn, one_mul, norm_sub_rev] at h1
      rw [show x + t - p = (x + t - z) + (z - p) by abel, inner_add_right] at h
      linarith
  · intro t
    simp only [add_zero]
    rw [show x + t - p = (x - p) + t by abel, inner_add_right]
    have := real_inner_le_norm n t
    rw [hn, one_mul] at this
    linarith
  · simp only [add_zero]
    intro hlt
    refine ⟨(r - inner ℝ n (x - p)) • n, ?_, ?_⟩
    · rw [norm_smul, hn, mul_one, Real.norm_eq_abs, abs_of_nonneg (by linarith)]
    · rw [show x + (r - inner ℝ n (x - p)) • n - p = (x - p) + (r - inner ℝ n (x - p)) • n by abel, inner_add_right, inner_smul_right, hnn]
      linarith

/-- What remains of a vector without its component along the axis -/
def offAxis (u z : E) : E := z - inner ℝ u z • u

theorem offAxis_add (u z w : E) : offAxis u (z + w) = offAxis u z + offAxis u w := by
  unfold offAxis
  rw [inner_add_right, add_smul]
  abel

theorem offAxis_smul (u z : E) (l : ℝ) : offAxis u (l • z) = l • offAxis u z := by
  unfold offAxis
  rw [inner_smul_right, smul_sub, mul_smul]

theorem norm_offAxis_le (u z : E) (hu : ‖u‖ = 1) : ‖offAxis u z‖ ≤ ‖z‖ := by
  have huu : inner ℝ u u = (1 : ℝ) := by rw [real_inner_self_eq_norm_sq, hu, one_pow]
  have h : ‖offAxis u z‖ ^ 2 = ‖z‖ ^ 2 - inner ℝ u z ^ 2 := by
    unfold offAxis
    rw [← real_inner_self_eq_norm_sq, inner_sub_left, inner_sub_right, inner_sub_right, inner_smul_left, inner_smul_right, inner_smul_left,
      inner_smul_right, huu, real_inner_self_eq_norm_sq, real_inner_comm u z]
    simp
    ring
  refine le_of_sq_le_sq ?_ (norm_nonneg _)
  rw [h]
  nlinarith [sq_nonneg (inner ℝ u z : ℝ)]

theorem offAxis_idem (u z : E) (hu : ‖u‖ = 1) : offAxis u (offAxis u z) = offAxis u z := by
  have huu : inner ℝ u u = (1 : ℝ) := by rw [real_inner_self_eq_norm_sq, hu, one_pow]
  have h : inner ℝ u (offAxis u z) = (0 : ℝ) := by
    unfold offAxis
    rw [inner_sub_right, inner_smul_right, huu, mul_one, sub_self]
  rw [offAxis, h, zero_smul, sub_zero]

theorem least_separation_cylinder (x p u : E) (hu : ‖u‖ = 1) {r R : ℝ} (hr : 0 < r) (hrR : r ≤ R) :
    IsLeast {e | 0 ≤ e ∧ ∃ t, ‖t‖ = e ∧ Disjoint (ball (x + t) r) {z | R < ‖offAxis u (z - p)‖}} (-(min 0 (R - ‖offAxis u (x - p)‖ - r))) := by
  have htri : ∀ z w : E, ‖offAxis u (z + w)‖ ≤ ‖offAxis u z‖ + ‖w‖ := fun z w => by
    rw [offAxis_add]
    exact (norm_add_le _ _).trans (by linarith [norm_offAxis_le u w hu])
  -- moving along the offset changes its length
  have hmove : ∀ (z : E) (l : ℝ), 0 < ‖offAxis u z‖ → ‖(l / ‖offAxis u z‖) • offAxis u z‖ = |l| ∧
      ‖offAxis u (z + (l / ‖offAxis u z‖) • offAxis u z)‖ = |‖offAxis u z‖ + l| := by
    intro z l hpos
    constructor
    · rw [norm_smul, Real.norm_eq_abs, abs_div, abs_of_pos hpos]
      field_simp
    · rw [offAxis_add, offAxis_smul, offAxis_idem u z hu]
      rw [show offAxis u z + (l / ‖offAxis u z‖) • offAxis u z = ((‖offAxis u z‖ + l) / ‖offAxis u z‖) • offAxis u z from by
        rw [add_div, div_self hpos.ne', add_smul, one_smul]]
      rw [norm_smul, Real.norm_eq_abs, abs_div, abs_of_pos hpos]
      field_simp
  have h := least_separation (sep := fun t => Disjoint (ball (x + t) r) {z | R < ‖offAxis u (z - p)‖})
    (clear := fun t => R - ‖offAxis u (x + t - p)‖) (r := r) ?_ ?_ ?_
  · simpa using h
  · intro t
    rw [Set.disjoint_left]
    constructor
    · intro h
      by_contra hlt
      push Not at hlt
      set d := ‖offAxis u (x + t - p)‖ with hd
      have hpos : 0 < d := by linarith
      set l := max 0 ((R - d + r) / 2) with hl
      have hl0 : 0 ≤ l := le_max_left _ _
      have hl1 : l < r := max_lt hr (by linarith)
      have hl2 : R < d + l := by
        have := le_max_right 0 ((R - d + r) / 2)
        linarith
      obtain ⟨m1, m2⟩ := hmove (x + t - p) l hpos
      refine h (a := x + t + (l / d) • offAxis u (x + t - p)) ?_ ?_
      · rw [mem_ball, dist_eq_norm, add_sub_cancel_left, m1, abs_of_nonneg hl0]
        exact hl1
      · simp only [Set.mem_ofPred_eq]
        rw [show x + t + (l / d) • offAxis u (x + t - p) - p = (x + t - p) + (l / d) • offAxis u (x + t - p) by abel, m2,
          abs_of_nonneg (by linarith)]
        exact hl2
    · intro h z hz hneg
      simp only [Set.mem_ofPred_eq] at hneg
      rw [mem_ball, dist_eq_norm] at hz
      have h1 := htri (x + t - p) (z - (x + t))
      rw [show x + t - p + (z - (x + t)) = z - p by abel] at h1
      linarith
  · intro t
    simp only [add_zero]
    have h1 := htri (x + t - p) (-t)
    rw [show x + t - p + -t = x - p by abel, norm_neg] at h1
    linarith
  · simp only [add_zero]
    intro hlt
    have hpos : 0 < ‖offAxis u (x - p)‖ := by linarith
    obtain ⟨m1, m2⟩ := hmove (x - p) (-(r - (R - ‖offAxis u (x - p)‖))) hpos
    refine ⟨(-(r - (R - ‖offAxis u (x - p)‖)) / ‖offAxis u (x - p)‖) • offAxis u (x - p), ?_, ?_⟩
    · rw [m1, abs_neg, abs_of_nonneg (by linarith)]
    · rw [show ∀ w, x + w - p = (x - p) + w from fun w => by abel, m2, abs_of_nonneg (by linarith)]
      linarith

end Scisim
