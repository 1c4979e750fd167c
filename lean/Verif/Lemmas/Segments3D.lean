import Verif.Model.Segments3D
import Verif.Lemmas.SeparatingAxis3D
import Verif.Spec.Geometry3D
import Mathlib.Analysis.Convex.Segment
import Mathlib.Tactic.Module
import Mathlib.Tactic.FieldSimp
import Mathlib.Tactic.Linarith
import Mathlib.Tactic.LinearCombination

/-!
# Closest points of two segments

The squared distance of the points with the parameters `s` and `t` is a convex quadratic function. A point of the unit square where its derivatives have the right
signs is a minimum; the parameters the program gives have this property.
-/

namespace Scisim

open Matrix

theorem clamp_range (v : ℝ) {lo hi : ℝ} (h : lo ≤ hi) : lo ≤ clampScalar v lo hi ∧ clampScalar v lo hi ≤ hi := by
  unfold clampScalar
  split_ifs with h1 h2
  · exact ⟨le_refl _, h⟩
  · exact ⟨h, le_refl _⟩
  · exact ⟨not_lt.mp h1, not_lt.mp h2⟩

/-- The value that is kept is the best one in the interval -/
theorem clamp_best {k : ℝ} (hk : 0 < k) (u lo hi : ℝ) {x : ℝ} (h0 : lo ≤ x) (h1 : x ≤ hi) :
    0 ≤ (k * clampScalar (u / k) lo hi - u) * (x - clampScalar (u / k) lo hi) := by
  unfold clampScalar
  split_ifs with ha hb
  · rw [div_lt_iff₀ hk] at ha
    exact mul_nonneg (by linarith) (by linarith)
  · rw [gt_iff_lt, lt_div_iff₀ hk] at hb
    exact mul_nonneg_of_nonpos_of_nonpos (by linarith) (by linarith)
  · rw [mul_div_cancel₀ _ hk.ne', sub_self, zero_mul]

/-- What makes the parameters `s` and `t` the best ones -/
structure BestParameters (a b c e f s t : ℝ) : Prop where
  s0 : 0 ≤ s
  s1 : s ≤ 1
  t0 : 0 ≤ t
  t1 : t ≤ 1
  ds : ∀ x, 0 ≤ x → x ≤ 1 → 0 ≤ (a * s - b * t + c) * (x - s)
  dt : ∀ y, 0 ≤ y → y ≤ 1 → 0 ≤ (e * t - b * s - f) * (y - t)

theorem segmentParameters_best {a b c e f : ℝ} (ha : distEps < a) (he : distEps < e) (hcs : b * b ≤ a * e) (hpar : a * e - b * b = 0 → b * f = c * e) :
    BestParameters a b c e f (segmentParameters a b c e f).1 (segmentParameters a b c e f).2 := by
  have hpos : (0 : ℝ) < distEps := by norm_num [distEps]
  have ha0 := hpos.trans ha
  have he0 := hpos.trans he
  unfold segmentParameters
  rw [if_neg (by rintro ⟨h, -⟩; exact absurd ha (not_lt.mpr h)), if_neg (not_le.mpr ha), if_neg (not_le.mpr he)]
  dsimp only
  generalize hs : (if a * e - b * b ≠ 0 then clampScalar ((b * f - c * e) / (a * e - b * b)) 0 1 else 0) = s
  have hs01 : 0 ≤ s ∧ s ≤ 1 := by
    rw [← hs]
    split_ifs
    · exact clamp_range _ zero_le_one
    · exact ⟨le_refl _, zero_le_one⟩
  have hG : ∀ x, 0 ≤ x → x ≤ 1 → 0 ≤ ((a * e - b * b) * s - (b * f - c * e)) * (x - s) := by
    intro x hx0 hx1
    rw [← hs]
    split_ifs with h
    · exact clamp_best (lt_of_le_of_ne (by linarith) (Ne.symm h)) _ _ _ hx0 hx1
    · rw [not_ne_iff] at h
      rw [h, hpar h]; simp
  have hte : e * ((b * s + f) / e) = b * s + f := mul_div_cancel₀ _ he0.ne'
  split_ifs with h1 h2
  · -- before the second segment
    have hneg : b * s + f < 0 := by rwa [div_lt_iff₀ he0, zero_mul] at h1
    have hr := clamp_range (-c / a) (zero_le_one (α := ℝ))
    have hH := fun x (hx0 : 0 ≤ x) (hx1 : x ≤ 1) => clamp_best ha0 (-c) 0 1 hx0 hx1
    dsimp only
    generalize clampScalar (-c / a) 0 1 = σ at *
    have hφ : b * σ + f ≤ 0 := by
      by_contra hcon
      push Not at hcon
      have g1 := hG σ hr.1 hr.2
      have g2 := mul_nonneg he0.le (hH s hs01.1 hs01.2)
      have g3 : 0 ≤ (a * e - b * b) * (s - σ) ^ 2 := mul_nonneg (by linarith) (sq_nonneg _)
      have g4 : b * s + f - (b * σ + f) < 0 := by linarith
      nlinarith [mul_neg_of_pos_of_neg hcon g4]
    refine ⟨hr.1, hr.2, le_refl _, zero_le_one, fun x hx0 hx1 => ?_, fun y hy0 _ => ?_⟩
    · have := hH x hx0 hx1
      rwa [sub_neg_eq_add, show a * σ + c = a * σ - b * 0 + c by ring] at this
    · rw [mul_zero, sub_zero, zero_sub]
      exact mul_nonneg (by linarith) hy0
  · -- behind the second segment
    have hpos' : 0 < b * s + f - e := by rw [gt_iff_lt, lt_div_iff₀ he0] at h2; linarith
    have hr := clamp_range ((b - c) / a) (zero_le_one (α := ℝ))
    have hH := fun x (hx0 : 0 ≤ x) (hx1 : x ≤ 1) => clamp_best ha0 (b - c) 0 1 hx0 hx1
    dsimp only
    generalize clampScalar ((b - c) / a) 0 1 = σ at *
    have hφ : 0 ≤ b * σ + f - e := by
      by_contra hcon
      push Not at hcon
      have g1 := hG σ hr.1 hr.2
      have g2 := mul_nonneg he0.le (hH s hs01.1 hs01.2)
      have g3 : 0 ≤ (a * e - b * b) * (s - σ) ^ 2 := mul_nonneg (by linarith) (sq_nonneg _)
      have g4 : 0 < b * s + f - e - (b * σ + f - e) := by linarith
      nlinarith [mul_neg_of_neg_of_pos hcon g4]
    refine ⟨hr.1, hr.2, zero_le_one, le_refl _, fun x hx0 hx1 => ?_, fun y _ hy1 => ?_⟩
    · have := hH x hx0 hx1
      rwa [show a * σ - (b - c) = a * σ - b * 1 + c by ring] at this
    · exact mul_nonneg_of_nonpos_of_nonpos (by linarith) (by linarith)
  · dsimp only
    push Not at h1 h2
    refine ⟨hs01.1, hs01.2, h1, h2, fun x hx0 hx1 => ?_, fun y _ _ => ?_⟩
    · have h3 := hG x hx0 hx1
      have h4 : (a * e - b * b) * s - (b * f - c * e) = e * (a * s - b * ((b * s + f) / e) + c) := by
        linear_combination b * hte
      rw [h4, mul_assoc] at h3
      exact nonneg_of_mul_nonneg_right h3 he0
    · rw [hte, show b * s + f - b * s - f = 0 by ring, zero_mul]

/-- The products of the directions of two segments -/
theorem gram_facts (d1 d2 r : Vec3) : (d1 ⬝ᵥ d2) * (d1 ⬝ᵥ d2) ≤ (d1 ⬝ᵥ d1) * (d2 ⬝ᵥ d2) ∧
    (0 < d2 ⬝ᵥ d2 → (d1 ⬝ᵥ d1) * (d2 ⬝ᵥ d2) - (d1 ⬝ᵥ d2) * (d1 ⬝ᵥ d2) = 0 → (d1 ⬝ᵥ d2) * (d2 ⬝ᵥ r) = (d1 ⬝ᵥ r) * (d2 ⬝ᵥ d2)) := by
  have hsq : ((d2 ⬝ᵥ d2) • d1 - (d1 ⬝ᵥ d2) • d2) ⬝ᵥ ((d2 ⬝ᵥ d2) • d1 - (d1 ⬝ᵥ d2) • d2) =
      (d2 ⬝ᵥ d2) * ((d1 ⬝ᵥ d1) * (d2 ⬝ᵥ d2) - (d1 ⬝ᵥ d2) * (d1 ⬝ᵥ d2)) := by
    simp only [dotProduct, Fin.sum_univ_three, Pi.sub_apply, Pi.smul_apply, smul_eq_mul]
    ring
  constructor
  · simp only [dotProduct, Fin.sum_univ_three]
    nlinarith [sq_nonneg (d1 0 * d2 1 - d1 1 * d2 0), sq_nonneg (d1 0 * d2 2 - d1 2 * d2 0), sq_nonneg (d1 1 * d2 2 - d1 2 * d2 1)]
  · intro _ h
    rw [h, mul_zero] at hsq
    have h0 := dotProduct_self_eq_zero.mp hsq
    have h1 := congrArg (· ⬝ᵥ r) h0
    simp only [sub_dotProduct, smul_dotProduct, smul_eq_mul, zero_dotProduct] at h1
    linarith

/-- The best parameters give the least distance -/
theorem best_distance {p1 q1 p2 q2 : Vec3} {s t : ℝ}
    (h : BestParameters ((q1 - p1) ⬝ᵥ (q1 - p1)) ((q1 - p1) ⬝ᵥ (q2 - p2)) ((q1 - p1) ⬝ᵥ (p1 - p2)) ((q2 - p2) ⬝ᵥ (q2 - p2)) ((q2 - p2) ⬝ᵥ (p1 - p2)) s t)
    {x y : ℝ} (hx0 : 0 ≤ x) (hx1 : x ≤ 1) (hy0 : 0 ≤ y) (hy1 : y ≤ 1) :
    (p1 + s • (q1 - p1) - (p2 + t • (q2 - p2))) ⬝ᵥ (p1 + s • (q1 - p1) - (p2 + t • (q2 - p2))) ≤
    (p1 + x • (q1 - p1) - (p2 + y • (q2 - p2))) ⬝ᵥ (p1 + x • (q1 - p1) - (p2 + y • (q2 - p2))) := by
  have hs := h.ds x hx0 hx1
  have ht := h.dt y hy0 hy1
  have hq : 0 ≤ ((x - s) • (q1 - p1) - (y - t) • (q2 - p2)) ⬝ᵥ ((x - s) • (q1 - p1) - (y - t) • (q2 - p2)) := by
    rw [← len3_sq]
    positivity
  generalize q1 - p1 = d1 at *
  generalize q2 - p2 = d2 at *
  simp only [dotProduct, Fin.sum_univ_three, Pi.sub_apply, Pi.add_apply, Pi.smul_apply, smul_eq_mul] at *
  linarith

/-! ### The result of `closestPointSegmentSegment` -/

theorem segmentParameters_range (a b c e f : ℝ) : (0 ≤ (segmentParameters a b c e f).1 ∧ (segmentParameters a b c e f).1 ≤ 1) ∧
    (0 ≤ (segmentParameters a b c e f).2 ∧ (segmentParameters a b c e f).2 ≤ 1) := by
  have h01 : (0 : ℝ) ≤ 1 := zero_le_one
  unfold segmentParameters
  dsimp only
  split_ifs <;> refine ⟨?_, ?_⟩ <;> first
    | exact clamp_range _ h01
    | exact ⟨le_refl _, h01⟩
    | exact ⟨h01, le_refl _⟩
    | exact ⟨not_lt.mp ‹_›, not_lt.mp ‹_›⟩

theorem mem_segment_iff {p q z : Vec3} : z ∈ segment ℝ p q ↔ ∃ t : ℝ, 0 ≤ t ∧ t ≤ 1 ∧ z = p + t • (q - p) := by
  rw [segment_eq_image']
  constructor
  · rintro ⟨t, ⟨h0, h1⟩, rfl⟩
    exact ⟨t, h0, h1, rfl⟩
  · rintro ⟨t, h0, h1, rfl⟩
    exact ⟨t, ⟨h0, h1⟩, rfl⟩

theorem closest_mem (p1 q1 p2 q2 : Vec3) : (closestPointSegmentSegment p1 q1 p2 q2).c1 ∈ segment ℝ p1 q1 ∧
    (closestPointSegmentSegment p1 q1 p2 q2).c2 ∈ segment ℝ p2 q2 := by
  have h := segmentParameters_range ((q1 - p1) ⬝ᵥ (q1 - p1)) ((q1 - p1) ⬝ᵥ (q2 - p2)) ((q1 - p1) ⬝ᵥ (p1 - p2)) ((q2 - p2) ⬝ᵥ (q2 - p2)) ((q2 - p2) ⬝ᵥ (p1 - p2))
  exact ⟨mem_segment_iff.mpr ⟨_, h.1.1, h.1.2, rfl⟩, mem_segment_iff.mpr ⟨_, h.2.1, h.2.2, rfl⟩⟩

theorem closest_le {p1 q1 p2 q2 : Vec3} (h1 : distEps < (q1 - p1) ⬝ᵥ (q1 - p1)) (h2 : distEps < (q2 - p2) ⬝ᵥ (q2 - p2)) {x y : Vec3}
    (hx : x ∈ segment ℝ p1 q1) (hy : y ∈ segment ℝ p2 q2) : (closestPointSegmentSegment p1 q1 p2 q2).distSq ≤ (x - y) ⬝ᵥ (x - y) := by
  obtain ⟨u, hu0, hu1, rfl⟩ := mem_segment_iff.mp hx
  obtain ⟨v, hv0, hv1, rfl⟩ := mem_segment_iff.mp hy
  have hg := gram_facts (q1 - p1) (q2 - p2) (p1 - p2)
  exact best_distance (segmentParameters_best h1 h2 hg.1 (hg.2 (lt_trans (by norm_num [distEps]) h2))) hu0 hu1 hv0 hv1

theorem len3_neg (f : Vec3) : len3 (-f) = len3 f := by rw [← neg_one_smul ℝ f, len3_smul]; simp

theorem len3_sub_comm (f g : Vec3) : len3 (f - g) = len3 (g - f) := by rw [← neg_sub, len3_neg]

/-- A short segment stays close to its first point -/
theorem short_segment {p q x : Vec3} (h : (q - p) ⬝ᵥ (q - p) ≤ distEps) (hx : x ∈ segment ℝ p q) : len3 (p - x) ≤ 1 / 10000 := by
  obtain ⟨u, hu0, hu1, rfl⟩ := mem_segment_iff.mp hx
  have h1 : len3 (q - p) ≤ 1 / 10000 := by
    rw [len3_eq_sqrt]
    refine Real.sqrt_le_iff.mpr ⟨by norm_num, h.trans ?_⟩
    norm_num [distEps]
  rw [sub_add_cancel_left, len3_neg, len3_smul, abs_of_nonneg hu0]
  have := mul_le_mul hu1 h1 (len3_nonneg _) zero_le_one
  linarith

theorem closest_within (p1 q1 p2 q2 : Vec3) {x y : Vec3} (hx : x ∈ segment ℝ p1 q1) (hy : y ∈ segment ℝ p2 q2) :
    len3 ((closestPointSegmentSegment p1 q1 p2 q2).c1 - (closestPointSegmentSegment p1 q1 p2 q2).c2) ≤ len3 (x - y) + 2 / 10000 := by
  have hpos : (0 : ℝ) < distEps := by norm_num [distEps]
  by_cases h1 : (q1 - p1) ⬝ᵥ (q1 - p1) ≤ distEps
  · by_cases h2 : (q2 - p2) ⬝ᵥ (q2 - p2) ≤ distEps
    · -- two points
      have hc : (closestPointSegmentSegment p1 q1 p2 q2).c1 - (closestPointSegmentSegment p1 q1 p2 q2).c2 = p1 - p2 := by
        simp only [closestPointSegmentSegment, segmentParameters, if_pos (And.intro h1 h2), zero_smul, add_zero]
      rw [hc, show p1 - p2 = (p1 - x) + ((x - y) + (y - p2)) by abel]
      have e1 := short_segment h1 hx
      have e2 := short_segment h2 hy
      rw [len3_sub_comm] at e2
      linarith [len3_add (p1 - x) ((x - y) + (y - p2)), len3_add (x - y) (y - p2)]
    · -- a point and a segment
      have h2' := not_le.mp h2
      obtain ⟨v, hv0, hv1, rfl⟩ := mem_segment_iff.mp hy
      have hc : (closestPointSegmentSegment p1 q1 p2 q2).c1 - (closestPointSegmentSegment p1 q1 p2 q2).c2 =
          p1 + (0 : ℝ) • (q1 - p1) - (p2 + clampScalar (((q2 - p2) ⬝ᵥ (p1 - p2)) / ((q2 - p2) ⬝ᵥ (q2 - p2))) 0 1 • (q2 - p2)) := by
        simp only [closestPointSegmentSegment, segmentParameters, if_neg (not_and_of_not_right _ h2), if_pos h1]
      have hr := clamp_range (((q2 - p2) ⬝ᵥ (p1 - p2)) / ((q2 - p2) ⬝ᵥ (q2 - p2))) (zero_le_one (α := ℝ))
      have hb := fun y (hy0 : 0 ≤ y) (hy1 : y ≤ 1) => clamp_best (hpos.trans h2') ((q2 - p2) ⬝ᵥ (p1 - p2)) 0 1 hy0 hy1
      have hle : len3 (p1 + (0 : ℝ) • (q1 - p1) - (p2 + clampScalar (((q2 - p2) ⬝ᵥ (p1 - p2)) / ((q2 - p2) ⬝ᵥ (q2 - p2))) 0 1 • (q2 - p2))) ≤
          len3 (p1 - (p2 + v • (q2 - p2))) := by
        rw [len3_eq_sqrt, len3_eq_sqrt]
        refine Real.sqrt_le_sqrt ?_
        have hb' := hb v hv0 hv1
        generalize clampScalar (((q2 - p2) ⬝ᵥ (p1 - p2)) / ((q2 - p2) ⬝ᵥ (q2 - p2))) 0 1 = τ at *
        have hq : 0 ≤ ((v - τ) • (q2 - p2)) ⬝ᵥ ((v - τ) • (q2 - p2)) := by
          rw [← len3_sq]; positivity
        generalize q2 - p2 = d2 at *
        simp only [dotProduct, Fin.sum_univ_three, Pi.sub_apply, Pi.add_apply, Pi.smul_apply, smul_eq_mul] at *
        linarith
      rw [hc]
      refine hle.trans ?_
      rw [show p1 - (p2 + v • (q2 - p2)) = (p1 - x) + (x - (p2 + v • (q2 - p2))) by abel]
      linarith [len3_add (p1 - x) (x - (p2 + v • (q2 - p2))), short_segment h1 hx]
  · have h1' := not_le.mp h1
    by_cases h2 : (q2 - p2) ⬝ᵥ (q2 - p2) ≤ distEps
    · -- a segment and a point
      obtain ⟨u, hu0, hu1, rfl⟩ := mem_segment_iff.mp hx
      have hc : (closestPointSegmentSegment p1 q1 p2 q2).c1 - (closestPointSegmentSegment p1 q1 p2 q2).c2 =
          p1 + clampScalar (-((q1 - p1) ⬝ᵥ (p1 - p2)) / ((q1 - p1) ⬝ᵥ (q1 - p1))) 0 1 • (q1 - p1) - (p2 + (0 : ℝ) • (q2 - p2)) := by
        simp only [closestPointSegmentSegment, segmentParameters, if_neg (not_and_of_not_left _ h1), if_neg h1, if_pos h2]
      have hb' := clamp_best (hpos.trans h1') (-((q1 - p1) ⬝ᵥ (p1 - p2))) 0 1 hu0 hu1
      have hle : len3 (p1 + clampScalar (-((q1 - p1) ⬝ᵥ (p1 - p2)) / ((q1 - p1) ⬝ᵥ (q1 - p1))) 0 1 • (q1 - p1) - (p2 + (0 : ℝ) • (q2 - p2))) ≤
          len3 (p1 + u • (q1 - p1) - p2) := by
        rw [len3_eq_sqrt, len3_eq_sqrt]
        refine Real.sqrt_le_sqrt ?_
        generalize clampScalar (-((q1 - p1) ⬝ᵥ (p1 - p2)) / ((q1 - p1) ⬝ᵥ (q1 - p1))) 0 1 = τ at *
        have hq : 0 ≤ ((u - τ) • (q1 - p1)) ⬝ᵥ ((u - τ) • (q1 - p1)) := by
          rw [← len3_sq]; positivity
        generalize q1 - p1 = d1 at *
        simp only [dotProduct, Fin.sum_univ_three, Pi.sub_apply, Pi.add_apply, Pi.smul_apply, smul_eq_mul] at *
        linarith
      rw [hc]
      refine hle.trans ?_
      rw [show p1 + u • (q1 - p1) - p2 = (p1 + u • (q1 - p1) - y) + (y - p2) by abel]
      have e2 := short_segment h2 hy
      rw [len3_sub_comm] at e2
      linarith [len3_add (p1 + u • (q1 - p1) - y) (y - p2)]
    · have := closest_le h1' (not_le.mp h2) hx hy
      have h3 := Real.sqrt_le_sqrt this
      rw [← len3_eq_sqrt] at h3
      have h4 : len3 ((closestPointSegmentSegment p1 q1 p2 q2).c1 - (closestPointSegmentSegment p1 q1 p2 q2).c2) = Real.sqrt (closestPointSegmentSegment p1 q1 p2 q2).distSq :=
        len3_eq_sqrt _
      rw [h4]
      linarith

/-! ### Capsules -/

theorem mem_ballSet3 {x z : Vec3} {r : ℝ} (hr : 0 ≤ r) : z ∈ ballSet3 x r ↔ len3 (z - x) ≤ r := by
  have h : (z 0 - x 0) ^ 2 + (z 1 - x 1) ^ 2 + (z 2 - x 2) ^ 2 = len3 (z - x) ^ 2 := by
    rw [len3_sq]; simp only [dotProduct, Fin.sum_univ_three, Pi.sub_apply]; ring
  show (z 0 - x 0) ^ 2 + (z 1 - x 1) ^ 2 + (z 2 - x 2) ^ 2 ≤ r ^ 2 ↔ _
  rw [h, pow_le_pow_iff_left₀ (len3_nonneg _) hr two_ne_zero]

/-- Two balls have a point in common exactly if the distance of their centres is at most the sum of the radii -/
theorem balls_share {x y : Vec3} {r0 r1 : ℝ} (h0 : 0 ≤ r0) (h1 : 0 ≤ r1) : (ballSet3 x r0 ∩ ballSet3 y r1).Nonempty ↔ (x - y) ⬝ᵥ (x - y) ≤ (r0 + r1) * (r0 + r1) := by
  have hsq : (x - y) ⬝ᵥ (x - y) ≤ (r0 + r1) * (r0 + r1) ↔ len3 (x - y) ≤ r0 + r1 := by
    rw [← len3_sq, ← sq, pow_le_pow_iff_left₀ (len3_nonneg _) (by linarith) two_ne_zero]
  rw [hsq]
  constructor
  · rintro ⟨z, hz0, hz1⟩
    rw [mem_ballSet3 h0] at hz0
    rw [mem_ballSet3 h1] at hz1
    rw [show x - y = (x - z) + (z - y) by abel]
    rw [len3_sub_comm] at hz0
    linarith [len3_add (x - z) (z - y)]
  · intro h
    rcases (add_nonneg h0 h1).eq_or_lt with h2 | h2
    · have e0 : r0 = 0 := by linarith
      have e1 : r1 = 0 := by linarith
      have hl : len3 (x - y) = 0 := le_antisymm (by linarith) (len3_nonneg _)
      refine ⟨x, (mem_ballSet3 h0).mpr ?_, (mem_ballSet3 h1).mpr (by rw [hl]; exact h1)⟩
      rw [sub_self, ← zero_smul ℝ x, len3_smul]; simpa using h0
    · have hne : r0 + r1 ≠ 0 := h2.ne'
      refine ⟨x + (r0 / (r0 + r1)) • (y - x), (mem_ballSet3 h0).mpr ?_, (mem_ballSet3 h1).mpr ?_⟩
      · rw [add_sub_cancel_left, len3_smul, len3_sub_comm, abs_of_nonneg (by positivity)]
        calc r0 / (r0 + r1) * len3 (x - y) ≤ r0 / (r0 + r1) * (r0 + r1) := mul_le_mul_of_nonneg_left h (by positivity)
          _ = r0 := div_mul_cancel₀ _ hne
      · have e : x + (r0 / (r0 + r1)) • (y - x) - y = (r1 / (r0 + r1)) • (x - y) := by
          have e1 : r1 / (r0 + r1) = 1 - r0 / (r0 + r1) := by field_simp; ring
          rw [e1]
          module
        rw [e, len3_smul, abs_of_nonneg (by positivity)]
        calc r1 / (r0 + r1) * len3 (x - y) ≤ r1 / (r0 + r1) * (r0 + r1) := mul_le_mul_of_nonneg_left h (by positivity)
          _ = r1 := div_mul_cancel₀ _ hne

/-! ### Staples -/

theorem rotated_dot {R : Mat3} (h : R.transpose * R = 1) (d : Vec3) : (R *ᵥ d) ⬝ᵥ (R *ᵥ d) = d ⬝ᵥ d := by
  rw [dotProduct_mulVec, ← mulVec_transpose, mulVec_mulVec, h, one_mulVec]

theorem corner_pairs (s : Staple) (p q : Vec3) : [p, q] <:+: s.corners ↔ ∃ e, e < 3 ∧ p = s.corner e ∧ q = s.corner (e + 1) := by
  constructor
  · rintro ⟨a, b, h⟩
    have hl := congrArg List.length h
    simp [Staple.corners] at hl
    refine ⟨a.length, by omega, ?_, ?_⟩
    · rw [Staple.corner, ← h]; simp
    · rw [Staple.corner, ← h]; simp
  · rintro ⟨e, he, rfl, rfl⟩
    interval_cases e
    · exact ⟨[], [s.corner 2, s.corner 3], rfl⟩
    · exact ⟨[s.corner 0], [s.corner 3], rfl⟩
    · exact ⟨[s.corner 0, s.corner 1], [], rfl⟩

theorem corner_length (s : Staple) {e : Nat} (he : e < 3) : (s.corner (e + 1) - s.corner e) ⬝ᵥ (s.corner (e + 1) - s.corner e) = s.l ^ 2 ∨
    (s.corner (e + 1) - s.corner e) ⬝ᵥ (s.corner (e + 1) - s.corner e) = s.w ^ 2 := by
  interval_cases e
  · left; simp [Staple.corner, Staple.corners, dotProduct, Fin.sum_univ_three]; ring
  · right; simp [Staple.corner, Staple.corners, dotProduct, Fin.sum_univ_three]; ring
  · left; simp [Staple.corner, Staple.corners, dotProduct, Fin.sum_univ_three]; ring

theorem staple_mem {cm : Vec3} {R : Mat3} {s : Staple} {z : Vec3} : z ∈ stapleSet3 cm R s ↔
    ∃ e, e < 3 ∧ ∃ x ∈ segment ℝ (R *ᵥ s.corner e + cm) (R *ᵥ s.corner (e + 1) + cm), z ∈ ballSet3 x s.r := by
  have hpt : ∀ (p q : Vec3) (t : ℝ), R *ᵥ p + cm + t • (R *ᵥ q + cm - (R *ᵥ p + cm)) = cm + R *ᵥ (p + t • (q - p)) := by
    intro p q t
    rw [mulVec_add, mulVec_smul, mulVec_sub]
    module
  constructor
  · rintro ⟨p, q, hpq, t, h0, h1, hz⟩
    obtain ⟨e, he, rfl, rfl⟩ := (corner_pairs s p q).mp hpq
    exact ⟨e, he, _, mem_segment_iff.mpr ⟨t, h0, h1, rfl⟩, by rw [hpt]; exact hz⟩
  · rintro ⟨e, he, x, hx, hz⟩
    obtain ⟨t, h0, h1, rfl⟩ := mem_segment_iff.mp hx
    exact ⟨_, _, (corner_pairs s _ _).mpr ⟨e, he, rfl, rfl⟩, t, h0, h1, by rw [← hpt]; exact hz⟩

theorem stapleStapleIsActive_iff (cm0 : Vec3) (R0 : Mat3) (s0 : Staple) (cm1 : Vec3) (R1 : Mat3) (s1 : Staple) :
    stapleStapleIsActive cm0 R0 s0 cm1 R1 s1 = true ↔ ∃ e0, e0 < 3 ∧ ∃ e1, e1 < 3 ∧
      (closestPointSegmentSegment (R0 *ᵥ s0.corner e0 + cm0) (R0 *ᵥ s0.corner (e0 + 1) + cm0)
        (R1 *ᵥ s1.corner e1 + cm1) (R1 *ᵥ s1.corner (e1 + 1) + cm1)).distSq ≤ (s0.r + s1.r) * (s0.r + s1.r) := by
  simp only [stapleStapleIsActive, List.any_eq_true, List.mem_range, decide_eq_true_eq]

theorem stapleStapleIsActive_share {cm0 : Vec3} {R0 : Mat3} {s0 : Staple} {cm1 : Vec3} {R1 : Mat3} {s1 : Staple} (hr0 : 0 ≤ s0.r) (hr1 : 0 ≤ s1.r)
    (h : stapleStapleIsActive cm0 R0 s0 cm1 R1 s1 = true) : (stapleSet3 cm0 R0 s0 ∩ stapleSet3 cm1 R1 s1).Nonempty := by
  obtain ⟨e0, h0, e1, h1, h⟩ := (stapleStapleIsActive_iff ..).mp h
  have hm := closest_mem (R0 *ᵥ s0.corner e0 + cm0) (R0 *ᵥ s0.corner (e0 + 1) + cm0) (R1 *ᵥ s1.corner e1 + cm1) (R1 *ᵥ s1.corner (e1 + 1) + cm1)
  obtain ⟨z, hz0, hz1⟩ := (balls_share hr0 hr1).mpr h
  exact ⟨z, staple_mem.mpr ⟨e0, h0, _, hm.1, hz0⟩, staple_mem.mpr ⟨e1, h1, _, hm.2, hz1⟩⟩

/-- The edges of a staple have the length of its legs or of its back -/
theorem edge_long {cm : Vec3} {R : Mat3} (h : R.transpose * R = 1) {s : Staple} (hw : distEps < s.w ^ 2) (hl : distEps < s.l ^ 2) {e : Nat} (he : e < 3) :
    distEps < (R *ᵥ s.corner (e + 1) + cm - (R *ᵥ s.corner e + cm)) ⬝ᵥ (R *ᵥ s.corner (e + 1) + cm - (R *ᵥ s.corner e + cm)) := by
  rw [add_sub_add_right_eq_sub, ← mulVec_sub, rotated_dot h]
  rcases corner_length s he with e | e <;> rw [e] <;> assumption

/-! ### A box and a ball -/

/-- The coordinate of a point of the box along an axis, clamped -/
theorem closestPointToBox_eq (xb : Vec3) (Rb : Mat3) (wb p : Vec3) : closestPointToBox xb Rb wb p =
    xb + Rb *ᵥ fun i => clampScalar (Rb.column i ⬝ᵥ (p - xb)) (-wb i) (wb i) := by
  unfold closestPointToBox
  simp only [List.finRange_succ, List.finRange_zero, List.map_nil, List.map_cons, List.foldl_cons, List.foldl_nil]
  funext k
  simp only [Pi.add_apply, Pi.smul_apply, smul_eq_mul, mulVec, dotProduct, Fin.sum_univ_three, Mat3.column]
  simp only [Fin.succ_zero_eq_one, Fin.succ_one_eq_two]
  ring

theorem closestPointToBox_mem (xb : Vec3) (Rb : Mat3) {wb : Vec3} (hw : ∀ i, 0 ≤ wb i) (p : Vec3) : closestPointToBox xb Rb wb p ∈ boxSet3 xb Rb wb := by
  refine ⟨_, fun i => ?_, closestPointToBox_eq xb Rb wb p⟩
  exact abs_le.mpr (clamp_range _ (by linarith [hw i]))

theorem closestPointToBox_le (xb : Vec3) {Rb : Mat3} (h : Rb.transpose * Rb = 1) {wb : Vec3} (p : Vec3) {y : Vec3} (hy : y ∈ boxSet3 xb Rb wb) :
    squaredNorm3 (closestPointToBox xb Rb wb p - p) ≤ squaredNorm3 (y - p) := by
  obtain ⟨a, ha, rfl⟩ := hy
  have hsq : ∀ v : Vec3, squaredNorm3 v = v ⬝ᵥ v := fun v => by simp [squaredNorm3, dotProduct, Fin.sum_univ_three]
  have h' : Rb * Rb.transpose = 1 := mul_eq_one_comm.mp h
  have hrot : ∀ b : Vec3, squaredNorm3 (xb + Rb *ᵥ b - p) = (b - Rb.transpose *ᵥ (p - xb)) ⬝ᵥ (b - Rb.transpose *ᵥ (p - xb)) := by
    intro b
    rw [hsq, ← rotated_dot h (b - _), mulVec_sub, mulVec_mulVec, h', one_mulVec]
    congr 1 <;> abel
  rw [closestPointToBox_eq, hrot, hrot]
  have hcol : ∀ i, (Rb.transpose *ᵥ (p - xb)) i = Rb.column i ⬝ᵥ (p - xb) := fun i => rfl
  have hterm : ∀ i, (clampScalar (Rb.column i ⬝ᵥ (p - xb)) (-wb i) (wb i) - Rb.column i ⬝ᵥ (p - xb)) ^ 2 ≤ (a i - Rb.column i ⬝ᵥ (p - xb)) ^ 2 := by
    intro i
    have := clamp_best one_pos (Rb.column i ⬝ᵥ (p - xb)) (-wb i) (wb i) (abs_le.mp (ha i)).1 (abs_le.mp (ha i)).2
    rw [div_one, one_mul] at this
    nlinarith [sq_nonneg (a i - clampScalar (Rb.column i ⬝ᵥ (p - xb)) (-wb i) (wb i))]
  simp only [dotProduct, Fin.sum_univ_three, Pi.sub_apply, hcol, ← sq]
  have h0 := hterm 0
  have h1 := hterm 1
  have h2 := hterm 2
  simp only [dotProduct, Fin.sum_univ_three, Pi.sub_apply] at h0 h1 h2
  linarith

end Scisim
