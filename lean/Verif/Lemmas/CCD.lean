import Verif.Model.CCD
import Verif.Spec.CCD
import Mathlib.Tactic.Linarith
import Mathlib.Tactic.LinearCombination
import Mathlib.Tactic.FieldSimp
import Mathlib.Tactic.Ring
/-!
# Discs and quadratics
-/

namespace Scisim

section
variable {K : Type} [Field K] [LinearOrder K] [IsStrictOrderedRing K]

/-- Cauchy–Schwarz in the plane, in the form needed for sums of lengths -/
theorem dot_le_of_sq {ax ay bx by' r s : K} (hr : 0 ≤ r) (hs : 0 ≤ s) (ha : ax ^ 2 + ay ^ 2 ≤ r ^ 2) (hb : bx ^ 2 + by' ^ 2 ≤ s ^ 2) :
    ax * bx + ay * by' ≤ r * s := by
  have h1 : (ax * bx + ay * by') ^ 2 ≤ (r * s) ^ 2 := by
    have h2 : (ax ^ 2 + ay ^ 2) * (bx ^ 2 + by' ^ 2) ≤ r ^ 2 * s ^ 2 :=
      mul_le_mul ha hb (by positivity) (by positivity)
    nlinarith [sq_nonneg (ax * by' - ay * bx)]
  exact le_of_sq_le_sq h1 (mul_nonneg hr hs)
where
  le_of_sq_le_sq {a b : K} (h : a ^ 2 ≤ b ^ 2) (hb : 0 ≤ b) : a ≤ b := by
    by_contra hc
    push Not at hc
    nlinarith

/-- two discs meet exactly when the distance of the centres is at most the sum of the radii -/
theorem discsMeet_iff {a b : V2 K} {ra rb : K} (ha : 0 ≤ ra) (hb : 0 ≤ rb) :
    DiscsMeet a ra b rb ↔ distSq a b ≤ (ra + rb) ^ 2 := by
  unfold DiscsMeet InDisc distSq
  constructor
  · rintro ⟨p, h1, h2⟩
    have h3 : (a.x - p.x) ^ 2 + (a.y - p.y) ^ 2 ≤ ra ^ 2 := by nlinarith
    have := dot_le_of_sq ha hb h3 h2
    nlinarith
  · intro h
    rcases (add_nonneg ha hb).lt_or_eq with hs | hs
    · have key : ∀ r s : K, 0 ≤ r → 0 ≤ s → 0 < r + s → distSq a b ≤ (r + s) ^ 2 →
          (r / (r + s)) ^ 2 * distSq a b ≤ r ^ 2 := by
        intro r s hr hs hrs hd
        rw [div_pow, div_mul_eq_mul_div, div_le_iff₀ (by positivity)]
        exact mul_le_mul_of_nonneg_left hd (by positivity)
      refine ⟨⟨(rb * a.x + ra * b.x) / (ra + rb), (rb * a.y + ra * b.y) / (ra + rb)⟩, ?_, ?_⟩
      · refine le_trans (le_of_eq ?_) (key ra rb ha hb hs h)
        unfold distSq
        have := hs.ne'
        simp only
        field_simp
        ring
      · refine le_trans (le_of_eq ?_) (key rb ra hb ha (by linarith) (by rw [add_comm]; exact h))
        unfold distSq
        have := hs.ne'
        have h' : rb + ra ≠ 0 := by rw [add_comm]; exact this
        simp only
        field_simp
        ring
    · have h0 : ra = 0 := by linarith
      have h1 : rb = 0 := by linarith
      subst h0 h1
      refine ⟨a, by simp, ?_⟩
      simpa using h

end

/-- the distance at time `t` is the quadratic -/
theorem distSq_moveTo (q0a q1a : V2 ℝ) (ra : ℝ) (q0b q1b : V2 ℝ) (rb t : ℝ) :
    distSq (moveTo q0a q1a t) (moveTo q0b q1b t) - (ra + rb) ^ 2 =
      (computeCCDQuadraticCoeffs q0a q1a ra q0b q1b rb).c2 * t ^ 2 + (computeCCDQuadraticCoeffs q0a q1a ra q0b q1b rb).c1 * t +
        (computeCCDQuadraticCoeffs q0a q1a ra q0b q1b rb).c0 := by
  simp only [distSq, moveTo, computeCCDQuadraticCoeffs, V2.dot, V2.sub_x, V2.sub_y]
  ring

/-- both formulas of the first root -/
theorem firstRoot_eq {a b c s : ℝ} (ha : 0 < a) (hs : 0 ≤ s) (h : s * s = b * b - 4 * a * c) :
    firstRootOfQuadratic a b c s = (-b - s) / (2 * a) := by
  unfold firstRootOfQuadratic
  split
  · rfl
  · rename_i hb
    push Not at hb
    have h1 : -b + s ≠ 0 := by linarith
    have h2 : 2 * a ≠ 0 := by positivity
    rw [div_eq_div_iff h1 h2]
    nlinarith

/-- both formulas of the second root -/
theorem secondRoot_eq {a b c s : ℝ} (ha : 0 < a) (hs : 0 ≤ s) (h : s * s = b * b - 4 * a * c) :
    secondRootOfQuadratic a b c s = (-b + s) / (2 * a) := by
  unfold secondRootOfQuadratic
  split
  · rename_i hb
    have h1 : -b - s ≠ 0 := by linarith
    have h2 : 2 * a ≠ 0 := by positivity
    rw [div_eq_div_iff h1 h2]
    nlinarith
  · rfl

/-- the quadratic is negative or zero exactly between the roots -/
theorem quad_le_iff {a b c s t : ℝ} (ha : 0 < a) (hs : 0 ≤ s) (h : s * s = b * b - 4 * a * c) :
    a * t ^ 2 + b * t + c ≤ 0 ↔ (-b - s) / (2 * a) ≤ t ∧ t ≤ (-b + s) / (2 * a) := by
  have h2 : 0 < 2 * a := by positivity
  rw [div_le_iff₀ h2, le_div_iff₀ h2]
  constructor
  · intro hq
    have h3 : (2 * a * t + b) ^ 2 ≤ s ^ 2 := by nlinarith
    have := abs_le_of_sq_le_sq' h3 hs
    constructor <;> linarith [this.1, this.2]
  · rintro ⟨h3, h4⟩
    have : (2 * a * t + b) ^ 2 ≤ s ^ 2 := sq_le_sq' (by linarith) (by linarith)
    by_contra hc
    push Not at hc
    nlinarith [mul_pos ha hc]

/-- what the solver computes: the least time in `[0, 1]` at which the quadratic is at most zero -/
theorem quadraticCCD_spec (c : Quadratic) (h2 : 0 ≤ c.c2) (h1 : c.c2 = 0 → c.c1 = 0) (t : ℝ) :
    quadraticCCD c = some t ↔ (0 ≤ t ∧ t ≤ 1 ∧ c.c2 * t ^ 2 + c.c1 * t + c.c0 ≤ 0) ∧
      ∀ u, 0 ≤ u → u ≤ 1 → c.c2 * u ^ 2 + c.c1 * u + c.c0 ≤ 0 → t ≤ u := by
  unfold quadraticCCD
  rcases eq_or_lt_of_le h2 with h0 | hpos
  · have h0' := h0.symm
    rw [if_neg (by simpa using h0'), h0', h1 h0']
    simp only [zero_mul, zero_add]
    split
    · rename_i hc
      constructor
      · intro h
        cases h
        exact ⟨⟨le_refl _, zero_le_one, hc⟩, fun u hu _ _ => hu⟩
      · rintro ⟨⟨ht, _, _⟩, hmin⟩
        have := hmin 0 (le_refl _) zero_le_one hc
        rw [le_antisymm ht this]
    · rename_i hc
      constructor
      · intro h; cases h
      · rintro ⟨⟨_, _, h⟩, _⟩; exact absurd h hc
  · rw [if_pos hpos.ne']
    simp only
    by_cases hd : c.c1 * c.c1 < 4 * c.c2 * c.c0
    · rw [if_pos hd]
      constructor
      · intro h; cases h
      · rintro ⟨⟨_, _, h⟩, _⟩
        nlinarith [sq_nonneg (2 * c.c2 * t + c.c1)]
    · rw [if_neg hd]
      push Not at hd
      have hs := Real.sqrt_nonneg (c.c1 * c.c1 - 4 * c.c2 * c.c0)
      have hss := Real.mul_self_sqrt (sub_nonneg.mpr hd)
      generalize Real.sqrt (c.c1 * c.c1 - 4 * c.c2 * c.c0) = s at hs hss ⊢
      rw [firstRoot_eq hpos hs hss, secondRoot_eq hpos hs hss]
      have hq := fun u => quad_le_iff (t := u) hpos hs hss
      simp only [hq]
      have hle : (-c.c1 - s) / (2 * c.c2) ≤ (-c.c1 + s) / (2 * c.c2) :=
        div_le_div_of_nonneg_right (by linarith) (by positivity)
      generalize (-c.c1 - s) / (2 * c.c2) = r0 at hle ⊢
      generalize (-c.c1 + s) / (2 * c.c2) = r1 at hle ⊢
      split
      · constructor
        · intro h; cases h
        · rintro ⟨⟨_, _, _, _⟩, _⟩; linarith
      · rename_i hr1
        push Not at hr1
        split
        · constructor
          · intro h; cases h
          · rintro ⟨⟨_, _, _, _⟩, _⟩; linarith
        · rename_i hr0
          push Not at hr0
          have hmem : 0 ≤ max 0 r0 ∧ max 0 r0 ≤ 1 ∧ r0 ≤ max 0 r0 ∧ max 0 r0 ≤ r1 :=
            ⟨le_max_left _ _, max_le zero_le_one hr0, le_max_right _ _, max_le hr1 hle⟩
          constructor
          · intro h
            cases h
            exact ⟨hmem, fun u hu _ hu2 => max_le hu hu2.1⟩
          · rintro ⟨⟨ht, _, ht2, _⟩, hmin⟩
            have h5 := hmin _ hmem.1 hmem.2.1 hmem.2.2
            rw [le_antisymm h5 (max_le ht ht2)]

end Scisim
