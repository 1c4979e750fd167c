import Verif.Lemmas.CCD
import Mathlib.Tactic.NormNum
/-!
# C16, C17: continuous collision detection of two balls
-/

namespace Scisim

theorem coeffs_ok (q0a q1a : V2 ℝ) (ra : ℝ) (q0b q1b : V2 ℝ) (rb : ℝ) :
    0 ≤ (computeCCDQuadraticCoeffs q0a q1a ra q0b q1b rb).c2 ∧
    ((computeCCDQuadraticCoeffs q0a q1a ra q0b q1b rb).c2 = 0 → (computeCCDQuadraticCoeffs q0a q1a ra q0b q1b rb).c1 = 0) := by
  simp only [computeCCDQuadraticCoeffs, V2.dot, V2.sub_x, V2.sub_y]
  refine ⟨add_nonneg (mul_self_nonneg _) (mul_self_nonneg _), fun h => ?_⟩
  have hx : q1a.x - q1b.x - (q0a.x - q0b.x) = 0 := by
    by_contra hc
    have := mul_self_pos.mpr hc
    nlinarith [mul_self_nonneg (q1a.y - q1b.y - (q0a.y - q0b.y))]
  have hy : q1a.y - q1b.y - (q0a.y - q0b.y) = 0 := by
    by_contra hc
    have := mul_self_pos.mpr hc
    nlinarith [mul_self_nonneg (q1a.x - q1b.x - (q0a.x - q0b.x))]
  rw [hx, hy]
  ring

theorem collideAt_iff {q0a q1a : V2 ℝ} {ra : ℝ} {q0b q1b : V2 ℝ} {rb : ℝ} (ha : 0 ≤ ra) (hb : 0 ≤ rb) (t : ℝ) :
    CollideAt q0a q1a ra q0b q1b rb t ↔ 0 ≤ t ∧ t ≤ 1 ∧
      (computeCCDQuadraticCoeffs q0a q1a ra q0b q1b rb).c2 * t ^ 2 + (computeCCDQuadraticCoeffs q0a q1a ra q0b q1b rb).c1 * t +
        (computeCCDQuadraticCoeffs q0a q1a ra q0b q1b rb).c0 ≤ 0 := by
  unfold CollideAt
  rw [discsMeet_iff ha hb, ← distSq_moveTo, sub_nonpos]

/-- **C17, the reported time is the first time of contact**: the collision test answers `t` exactly when `t` is the first time in
`[0, 1]` at which the two moving balls touch or overlap. -/
theorem C17_first_contact (q0a q1a : V2 ℝ) (ra : ℝ) (q0b q1b : V2 ℝ) (rb : ℝ) (ha : 0 ≤ ra) (hb : 0 ≤ rb) (t : ℝ) :
    ballBallCCD q0a q1a ra q0b q1b rb = some t ↔
      CollideAt q0a q1a ra q0b q1b rb t ∧ ∀ u, CollideAt q0a q1a ra q0b q1b rb u → t ≤ u := by
  obtain ⟨h2, h1⟩ := coeffs_ok q0a q1a ra q0b q1b rb
  unfold ballBallCCD
  rw [quadraticCCD_spec _ h2 h1]
  simp only [collideAt_iff ha hb]
  exact and_congr Iff.rfl ⟨fun h u hu => h u hu.1 hu.2.1 hu.2.2, fun h u a b c => h u ⟨a, b, c⟩⟩

/-- **C16, a reported impact is real**: the reported time lies in the step and the balls, moved there, touch or overlap. -/
theorem C16_sound (q0a q1a : V2 ℝ) (ra : ℝ) (q0b q1b : V2 ℝ) (rb : ℝ) (ha : 0 ≤ ra) (hb : 0 ≤ rb) (t : ℝ)
    (h : ballBallCCD q0a q1a ra q0b q1b rb = some t) :
    0 ≤ t ∧ t ≤ 1 ∧ DiscsMeet (moveTo q0a q1a t) ra (moveTo q0b q1b t) rb :=
  ((C17_first_contact q0a q1a ra q0b q1b rb ha hb t).mp h).1

/-- the quadratic solver answers `none` only when there is nothing to find -/
theorem quadraticCCD_none {c : Quadratic} (h2 : 0 ≤ c.c2) (h1 : c.c2 = 0 → c.c1 = 0) (h : quadraticCCD c = none) (u : ℝ) (hu0 : 0 ≤ u)
    (hu1 : u ≤ 1) : 0 < c.c2 * u ^ 2 + c.c1 * u + c.c0 := by
  unfold quadraticCCD at h
  rcases eq_or_lt_of_le h2 with h0 | hpos
  · have h0' := h0.symm
    rw [if_neg (by simpa using h0')] at h
    split at h
    · cases h
    · rename_i hc
      rw [h0', h1 h0']
      push Not at hc
      linarith
  · rw [if_pos hpos.ne'] at h
    simp only at h
    by_cases hd : c.c1 * c.c1 < 4 * c.c2 * c.c0
    · by_contra hc
      push Not at hc
      nlinarith [sq_nonneg (2 * c.c2 * u + c.c1)]
    · rw [if_neg hd] at h
      push Not at hd
      have hs := Real.sqrt_nonneg (c.c1 * c.c1 - 4 * c.c2 * c.c0)
      have hss := Real.mul_self_sqrt (sub_nonneg.mpr hd)
      generalize Real.sqrt (c.c1 * c.c1 - 4 * c.c2 * c.c0) = s at hs hss h
      rw [firstRoot_eq hpos hs hss, secondRoot_eq hpos hs hss] at h
      by_contra hc
      push Not at hc
      have hq := (quad_le_iff (t := u) hpos hs hss).mp hc
      split at h
      · linarith [hq.2]
      · split at h
        · linarith [hq.1]
        · cases h

/-- **C17, no impact is missed**: if the answer is "no collision" the balls are apart throughout the step, and conversely. -/
theorem C17_complete (q0a q1a : V2 ℝ) (ra : ℝ) (q0b q1b : V2 ℝ) (rb : ℝ) (ha : 0 ≤ ra) (hb : 0 ≤ rb) :
    ballBallCCD q0a q1a ra q0b q1b rb = none ↔ ¬ ∃ t, CollideAt q0a q1a ra q0b q1b rb t := by
  obtain ⟨h2, h1⟩ := coeffs_ok q0a q1a ra q0b q1b rb
  constructor
  · rintro h ⟨t, ht⟩
    obtain ⟨ht0, ht1, hq⟩ := (collideAt_iff ha hb t).mp ht
    exact absurd hq (not_le.mpr (quadraticCCD_none h2 h1 h t ht0 ht1))
  · intro h
    cases hc : ballBallCCD q0a q1a ra q0b q1b rb with
    | none => rfl
    | some t => exact absurd ⟨t, C16_sound q0a q1a ra q0b q1b rb ha hb t hc⟩ h

/-- A ball moving right by 8 meets, half way, a ball of the same radius 1 at rest at distance 6. -/
example : ballBallCCD ⟨0, 0⟩ ⟨8, 0⟩ 1 ⟨6, 0⟩ ⟨6, 0⟩ 1 = some (1 / 2) := by
  rw [C17_first_contact _ _ _ _ _ _ zero_le_one zero_le_one]
  unfold CollideAt
  simp only [discsMeet_iff (zero_le_one' ℝ) (zero_le_one' ℝ), distSq, moveTo]
  refine ⟨⟨by norm_num, by norm_num, by norm_num⟩, ?_⟩
  rintro u ⟨h0, h1, h2⟩
  nlinarith

/-- It passes a ball that is 3 to the side. -/
example : ballBallCCD ⟨0, 0⟩ ⟨8, 0⟩ 1 ⟨6, 3⟩ ⟨6, 3⟩ 1 = none := by
  rw [C17_complete _ _ _ _ _ _ zero_le_one zero_le_one]
  rintro ⟨t, _, _, h⟩
  rw [discsMeet_iff (zero_le_one' ℝ) (zero_le_one' ℝ)] at h
  simp only [distSq, moveTo] at h
  nlinarith [sq_nonneg ((1 - t) * 0 + t * 8 - ((1 - t) * 6 + t * 6))]

end Scisim
