import Mathlib.Analysis.LocallyConvex.Separation
import Mathlib.Topology.Algebra.Module.FiniteDimension
import Mathlib.Tactic.Linarith
import Mathlib.Tactic.LinearCombination
import Mathlib.Tactic.FinCases
import Verif.Spec.Geometry2D
/-!
# Separating axes of two boxes
-/

namespace Scisim

/-! ## The chain of separating axis tests -/

/-- What the tests of the axes in `S` leave behind -/
def SatInv (d w : Fin 4 → ℝ) (S : Fin 4 → Prop) (st : SatState) : Prop :=
  ∃ f, S f ∧ st.feature = some f ∧ st.smallest = ((|d f| - w f : ℝ) : WithBot ℝ) ∧ st.invert = decide (d f < 0) ∧
    ∀ i, S i → |d i| - w i ≤ |d f| - w f ∧ |d i| - w i ≤ 0

theorem satTest_first (d w : Fin 4 → ℝ) (i : Fin 4) (b : Bool) (f : CollidingFeature) :
    (axisAlignedSeperatingTest (d i) (w i) i ⟨⊥, b, f⟩ = none ∧ 0 < |d i| - w i) ∨
    (∃ st, axisAlignedSeperatingTest (d i) (w i) i ⟨⊥, b, f⟩ = some st ∧ SatInv d w (fun j => j = i) st) := by
  unfold axisAlignedSeperatingTest
  by_cases h : |d i| - w i > 0
  · left; simp only [if_pos h]; exact ⟨trivial, h⟩
  · right
    have : ((|d i| - w i : ℝ) : WithBot ℝ) > ⊥ := WithBot.bot_lt_coe _
    simp only [if_neg h, if_pos this]
    exact ⟨_, rfl, i, rfl, rfl, rfl, rfl, fun j hj => by subst hj; exact ⟨le_refl _, not_lt.mp h⟩⟩

theorem satTest_next (d w : Fin 4 → ℝ) (S : Fin 4 → Prop) (i : Fin 4) (st : SatState) (hst : SatInv d w S st) :
    (axisAlignedSeperatingTest (d i) (w i) i st = none ∧ 0 < |d i| - w i) ∨
    (∃ st', axisAlignedSeperatingTest (d i) (w i) i st = some st' ∧ SatInv d w (fun j => S j ∨ j = i) st') := by
  obtain ⟨f, hf, h1, h2, h3, h4⟩ := hst
  unfold axisAlignedSeperatingTest
  by_cases h : |d i| - w i > 0
  · left; simp only [if_pos h]; exact ⟨trivial, h⟩
  · right
    simp only [if_neg h]
    by_cases hs : ((|d i| - w i : ℝ) : WithBot ℝ) > st.smallest
    · simp only [if_pos hs]
      rw [h2, gt_iff_lt, WithBot.coe_lt_coe] at hs
      refine ⟨_, rfl, i, Or.inr rfl, rfl, rfl, rfl, ?_⟩
      rintro j (hj | rfl)
      · exact ⟨le_trans (h4 j hj).1 hs.le, (h4 j hj).2⟩
      · exact ⟨le_refl _, not_lt.mp h⟩
    · simp only [if_neg hs]
      rw [h2, gt_iff_lt, WithBot.coe_lt_coe, not_lt] at hs
      refine ⟨st, rfl, f, Or.inl hf, h1, h2, h3, ?_⟩
      rintro j (hj | rfl)
      · exact h4 j hj
      · exact ⟨hs, not_lt.mp h⟩

/-- The four tests in a row either find an axis that separates, or none does and the recorded feature is the one of least penetration. -/
theorem satChain (d w : Fin 4 → ℝ) :
    let r := (axisAlignedSeperatingTest (d 0) (w 0) 0 ⟨⊥, false, none⟩).bind fun s =>
      (axisAlignedSeperatingTest (d 1) (w 1) 1 s).bind fun s =>
      (axisAlignedSeperatingTest (d 2) (w 2) 2 s).bind fun s => axisAlignedSeperatingTest (d 3) (w 3) 3 s
    (r = none ∧ ∃ i, 0 < |d i| - w i) ∨ (∃ st, r = some st ∧ SatInv d w (fun _ => True) st) := by
  intro r
  rcases satTest_first d w 0 false none with ⟨h, h'⟩ | ⟨s0, h0, i0⟩
  · left; simp only [r, h, Option.bind_none]; exact ⟨trivial, 0, h'⟩
  rcases satTest_next d w _ 1 s0 i0 with ⟨h, h'⟩ | ⟨s1, h1, i1⟩
  · left; simp only [r, h0, Option.bind_some, h, Option.bind_none]; exact ⟨trivial, 1, h'⟩
  rcases satTest_next d w _ 2 s1 i1 with ⟨h, h'⟩ | ⟨s2, h2, i2⟩
  · left; simp only [r, h0, h1, Option.bind_some, h, Option.bind_none]; exact ⟨trivial, 2, h'⟩
  rcases satTest_next d w _ 3 s2 i2 with ⟨h, h'⟩ | ⟨s3, h3, i3⟩
  · left; simp only [r, h0, h1, h2, Option.bind_some, h]; exact ⟨trivial, 3, h'⟩
  right
  refine ⟨s3, by simp only [r, h0, h1, h2, Option.bind_some, h3], ?_⟩
  obtain ⟨f, _, a, b, c, e⟩ := i3
  refine ⟨f, trivial, a, b, c, fun i _ => e i ?_⟩
  fin_cases i <;> simp

/-! ## Four axes are enough -/

theorem satCone_core (g d u0 u1 p0 p1 a0 a1 b0 b1 : ℝ) (hgd : g ^ 2 + d ^ 2 = 1) (h0 : 0 ≤ u0) (h1 : 0 ≤ u1) (hh0 : 0 ≤ g * u0 - d * u1)
    (hh1 : 0 ≤ d * u0 + g * u1)
    (h : a0 * u0 + a1 * u1 + b0 * (g * u0 - d * u1) + b1 * (d * u0 + g * u1) < u0 * p0 + u1 * p1) :
    a0 + b0 * |g| + b1 * |d| < p0 ∨ a1 + b0 * |d| + b1 * |g| < p1 ∨ a0 * |g| + a1 * |d| + b0 < g * p0 - d * p1 ∨
      a0 * |d| + a1 * |g| + b1 < d * p0 + g * p1 := by
  by_contra hcon
  push Not at hcon
  obtain ⟨c0, c1, c2, c3⟩ := hcon
  have hu : 0 < u0 ^ 2 + u1 ^ 2 := by
    rcases eq_or_lt_of_le h0 with e | e
    · rcases eq_or_lt_of_le h1 with e' | e'
      · rw [← e, ← e'] at h; simp at h
      · positivity
    · positivity
  have hg : 0 ≤ g := by
    have : 0 ≤ g * (u0 ^ 2 + u1 ^ 2) := by nlinarith [mul_nonneg hh0 h0, mul_nonneg hh1 h1]
    exact nonneg_of_mul_nonneg_left this hu
  rw [abs_of_nonneg hg] at *
  rcases le_total 0 d with hd | hd
  · rw [abs_of_nonneg hd] at *
    rcases eq_or_lt_of_le hg with e | e
    · subst e
      have hd1 : d = 1 := by nlinarith
      subst hd1
      have : u1 = 0 := by linarith
      subst this
      nlinarith [mul_le_mul_of_nonneg_left c0 h0]
    · have k0 := mul_le_mul_of_nonneg_left c0 hh0
      have k3 := mul_le_mul_of_nonneg_left c3 h1
      have := mul_lt_mul_of_pos_left h e
      have id1 : g * (u0 * p0 + u1 * p1) = (g * u0 - d * u1) * p0 + u1 * (d * p0 + g * p1) := by ring
      have id2 : g * (a0 * u0 + a1 * u1 + b0 * (g * u0 - d * u1) + b1 * (d * u0 + g * u1))
          = (g * u0 - d * u1) * (a0 + b0 * g + b1 * d) + u1 * (a0 * d + a1 * g + b1) + b1 * u1 * (g ^ 2 + d ^ 2 - 1) := by ring
      rw [hgd] at id2
      linarith
  · rw [abs_of_nonpos hd] at *
    rcases eq_or_lt_of_le hg with e | e
    · subst e
      have hd1 : d = -1 := by nlinarith
      subst hd1
      have : u0 = 0 := by linarith
      subst this
      nlinarith [mul_le_mul_of_nonneg_left c1 h1]
    · have k1 := mul_le_mul_of_nonneg_left c1 hh1
      have k2 := mul_le_mul_of_nonneg_left c2 h0
      have := mul_lt_mul_of_pos_left h e
      have id1 : g * (u0 * p0 + u1 * p1) = (d * u0 + g * u1) * p1 + u0 * (g * p0 - d * p1) := by ring
      have id2 : g * (a0 * u0 + a1 * u1 + b0 * (g * u0 - d * u1) + b1 * (d * u0 + g * u1))
          = (d * u0 + g * u1) * (a1 + b0 * -d + b1 * g) + u0 * (a0 * g + a1 * -d + b0) + b0 * u0 * (g ^ 2 + d ^ 2 - 1) := by ring
      rw [hgd] at id2
      linarith

theorem abs_sign_one (c : ℝ) : ∃ s : ℝ, (s = 1 ∨ s = -1) ∧ s * c = |c| := by
  rcases le_total 0 c with h | h
  · exact ⟨1, Or.inl rfl, by rw [abs_of_nonneg h]; ring⟩
  · exact ⟨-1, Or.inr rfl, by rw [abs_of_nonpos h]; ring⟩

/-- If some direction separates the boxes, one of the four axes does. -/
theorem satCone (C S u0 u1 p0 p1 a0 a1 b0 b1 : ℝ) (hCS : C ^ 2 + S ^ 2 = 1)
    (h : a0 * |u0| + a1 * |u1| + b0 * |C * u0 + S * u1| + b1 * |-S * u0 + C * u1| < u0 * p0 + u1 * p1) :
    a0 + b0 * |C| + b1 * |S| < |p0| ∨ a1 + b0 * |S| + b1 * |C| < |p1| ∨ a0 * |C| + a1 * |S| + b0 < |C * p0 + S * p1| ∨
      a0 * |S| + a1 * |C| + b1 < |-S * p0 + C * p1| := by
  obtain ⟨s0, hs0, e0⟩ := abs_sign_one u0
  obtain ⟨s1, hs1, e1⟩ := abs_sign_one u1
  obtain ⟨t0, ht0, f0⟩ := abs_sign_one (C * u0 + S * u1)
  obtain ⟨t1, ht1, f1⟩ := abs_sign_one (-S * u0 + C * u1)
  have q0 : s0 * s0 = 1 := by rcases hs0 with rfl | rfl <;> norm_num
  have q1 : s1 * s1 = 1 := by rcases hs1 with rfl | rfl <;> norm_num
  have r0 : t0 * t0 = 1 := by rcases ht0 with rfl | rfl <;> norm_num
  have r1 : t1 * t1 = 1 := by rcases ht1 with rfl | rfl <;> norm_num
  have ab : ∀ s : ℝ, s = 1 ∨ s = -1 → |s| = 1 := by rintro s (rfl | rfl) <;> norm_num
  have up : ∀ s x : ℝ, (s = 1 ∨ s = -1) → s * x ≤ |x| := by
    rintro s x (rfl | rfl)
    · rw [one_mul]; exact le_abs_self x
    · rw [neg_one_mul]; exact neg_le_abs x
  rw [← e0, ← e1, ← f0, ← f1] at h
  have n0 : 0 ≤ s0 * u0 := by rw [e0]; exact abs_nonneg _
  have n1 : 0 ≤ s1 * u1 := by rw [e1]; exact abs_nonneg _
  have m0 : 0 ≤ t0 * (C * u0 + S * u1) := by rw [f0]; exact abs_nonneg _
  have m1 : 0 ≤ t1 * (-S * u0 + C * u1) := by rw [f1]; exact abs_nonneg _
  have hpp : s0 * u0 * (s0 * p0) + s1 * u1 * (s1 * p1) = u0 * p0 + u1 * p1 := by linear_combination (u0 * p0) * q0 + (u1 * p1) * q1
  by_cases hdet : s0 * t0 = s1 * t1
  · -- same orientation
    have hd2 : s1 * t0 = s0 * t1 := by
      rcases hs0 with rfl | rfl <;> rcases hs1 with rfl | rfl <;> rcases ht0 with rfl | rfl <;> rcases ht1 with rfl | rfl <;> first | (exfalso; revert hdet; norm_num; done) | norm_num
    have g1 : (s0 * t0 * C) * (s0 * u0) - (-(s0 * t1 * S)) * (s1 * u1) = t0 * (C * u0 + S * u1) := by
      linear_combination (t0 * C * u0) * q0 + (S * u1 * t0) * q1 - (S * u1 * s1) * hd2
    have g2 : (-(s0 * t1 * S)) * (s0 * u0) + (s0 * t0 * C) * (s1 * u1) = t1 * (-S * u0 + C * u1) := by
      linear_combination (-(t1 * S * u0)) * q0 + (C * u1 * t1) * q1 + (C * u1 * s1) * hdet
    have g1p : (s0 * t0 * C) * (s0 * p0) - (-(s0 * t1 * S)) * (s1 * p1) = t0 * (C * p0 + S * p1) := by
      linear_combination (t0 * C * p0) * q0 + (S * p1 * t0) * q1 - (S * p1 * s1) * hd2
    have g2p : (-(s0 * t1 * S)) * (s0 * p0) + (s0 * t0 * C) * (s1 * p1) = t1 * (-S * p0 + C * p1) := by
      linear_combination (-(t1 * S * p0)) * q0 + (C * p1 * t1) * q1 + (C * p1 * s1) * hdet
    have aC : |s0 * t0 * C| = |C| := by rw [abs_mul, abs_mul, ab _ hs0, ab _ ht0]; ring
    have aS : |-(s0 * t1 * S)| = |S| := by rw [abs_neg, abs_mul, abs_mul, ab _ hs0, ab _ ht1]; ring
    have := satCone_core (s0 * t0 * C) (-(s0 * t1 * S)) (s0 * u0) (s1 * u1) (s0 * p0) (s1 * p1) a0 a1 b0 b1
      (by linear_combination hCS + C ^ 2 * t0 * t0 * q0 + C ^ 2 * r0 + S ^ 2 * t1 * t1 * q0 + S ^ 2 * r1) n0 n1 (by rw [g1]; exact m0) (by rw [g2]; exact m1)
      (by rw [g1, g2, hpp]; exact h)
    rw [aC, aS, g1p, g2p] at this
    rcases this with k | k | k | k
    · left; exact lt_of_lt_of_le k (up _ _ hs0)
    · right; left; exact lt_of_lt_of_le k (up _ _ hs1)
    · right; right; left; exact lt_of_lt_of_le k (up _ _ ht0)
    · right; right; right; exact lt_of_lt_of_le k (up _ _ ht1)
  · have hdet' : s0 * t0 = -(s1 * t1) := by
      rcases hs0 with rfl | rfl <;> rcases hs1 with rfl | rfl <;> rcases ht0 with rfl | rfl <;> rcases ht1 with rfl | rfl <;> first | (exfalso; revert hdet; norm_num; done) | norm_num
    have hd2 : s1 * t0 = -(s0 * t1) := by
      rcases hs0 with rfl | rfl <;> rcases hs1 with rfl | rfl <;> rcases ht0 with rfl | rfl <;> rcases ht1 with rfl | rfl <;> first | (exfalso; revert hdet'; norm_num; done) | norm_num
    -- h1 takes the place of h0
    have g1 : (-(s0 * t1 * S)) * (s0 * u0) - (s0 * t0 * C) * (s1 * u1) = t1 * (-S * u0 + C * u1) := by
      linear_combination (-(t1 * S * u0)) * q0 + (C * u1 * t1) * q1 - (C * u1 * s1) * hdet'
    have g2 : (s0 * t0 * C) * (s0 * u0) + (-(s0 * t1 * S)) * (s1 * u1) = t0 * (C * u0 + S * u1) := by
      linear_combination (t0 * C * u0) * q0 + (S * u1 * t0) * q1 - (S * u1 * s1) * hd2
    have g1p : (-(s0 * t1 * S)) * (s0 * p0) - (s0 * t0 * C) * (s1 * p1) = t1 * (-S * p0 + C * p1) := by
      linear_combination (-(t1 * S * p0)) * q0 + (C * p1 * t1) * q1 - (C * p1 * s1) * hdet'
    have g2p : (s0 * t0 * C) * (s0 * p0) + (-(s0 * t1 * S)) * (s1 * p1) = t0 * (C * p0 + S * p1) := by
      linear_combination (t0 * C * p0) * q0 + (S * p1 * t0) * q1 - (S * p1 * s1) * hd2
    have aC : |s0 * t0 * C| = |C| := by rw [abs_mul, abs_mul, ab _ hs0, ab _ ht0]; ring
    have aS : |-(s0 * t1 * S)| = |S| := by rw [abs_neg, abs_mul, abs_mul, ab _ hs0, ab _ ht1]; ring
    have := satCone_core (-(s0 * t1 * S)) (s0 * t0 * C) (s0 * u0) (s1 * u1) (s0 * p0) (s1 * p1) a0 a1 b1 b0
      (by linear_combination hCS + C ^ 2 * t0 * t0 * q0 + C ^ 2 * r0 + S ^ 2 * t1 * t1 * q0 + S ^ 2 * r1) n0 n1 (by rw [g1]; exact m1) (by rw [g2]; exact m0)
      (by rw [g1, g2, hpp]; linarith [h])
    rw [aC, aS, g1p, g2p] at this
    rcases this with k | k | k | k
    · left; exact lt_of_lt_of_le (by linarith) (up _ _ hs0)
    · right; left; exact lt_of_lt_of_le (by linarith) (up _ _ hs1)
    · right; right; right; exact lt_of_lt_of_le k (up _ _ ht1)
    · right; right; left; exact lt_of_lt_of_le k (up _ _ ht0)

/-! ## Disjoint boxes are separated by a line -/

/-- The box as a subset of the plane `ℝ × ℝ` -/
def boxProd (x : V2 ℝ) (th : ℝ) (r : V2 ℝ) : Set (ℝ × ℝ) :=
  (fun q : ℝ × ℝ => (x.x + q.1 * Real.cos th - q.2 * Real.sin th, x.y + q.1 * Real.sin th + q.2 * Real.cos th)) ''
    (Set.Icc (-r.x) r.x ×ˢ Set.Icc (-r.y) r.y)

theorem boxProd_mem (x : V2 ℝ) (th : ℝ) (r z : V2 ℝ) : (z.x, z.y) ∈ boxProd x th r ↔ z ∈ boxSet x th r := by
  constructor
  · rintro ⟨⟨a, b⟩, ⟨ha, hb⟩, hz⟩
    simp only [Prod.mk.injEq] at hz
    exact ⟨a, b, abs_le.mpr ha, abs_le.mpr hb, V2.ext hz.1.symm hz.2.symm⟩
  · rintro ⟨a, b, ha, hb, rfl⟩
    exact ⟨(a, b), ⟨abs_le.mp ha, abs_le.mp hb⟩, rfl⟩

theorem boxProd_compact (x : V2 ℝ) (th : ℝ) (r : V2 ℝ) : IsCompact (boxProd x th r) := by
  apply IsCompact.image (isCompact_Icc.prod isCompact_Icc)
  fun_prop

theorem boxProd_convex (x : V2 ℝ) (th : ℝ) (r : V2 ℝ) : Convex ℝ (boxProd x th r) := by
  rintro _ ⟨⟨a, b⟩, hp, rfl⟩ _ ⟨⟨a', b'⟩, hq, rfl⟩ s t hs ht hst
  refine ⟨s • (a, b) + t • (a', b'), ((convex_Icc _ _).prod (convex_Icc _ _)) hp hq hs ht hst, ?_⟩
  have : t = 1 - s := by linarith
  subst this
  ext
  · simp; ring
  · simp; ring

theorem disjoint_boxes_separated (x0 : V2 ℝ) (th0 : ℝ) (r0 x1 : V2 ℝ) (th1 : ℝ) (r1 : V2 ℝ)
    (h : ¬ ∃ z, z ∈ boxSet x0 th0 r0 ∧ z ∈ boxSet x1 th1 r1) :
    ∃ u c, SeparatedBy u c (boxSet x0 th0 r0) (boxSet x1 th1 r1) := by
  have hd : Disjoint (boxProd x0 th0 r0) (boxProd x1 th1 r1) := by
    rw [Set.disjoint_left]
    rintro ⟨a, b⟩ h0 h1
    exact h ⟨⟨a, b⟩, (boxProd_mem _ _ _ ⟨a, b⟩).mp h0, (boxProd_mem _ _ _ ⟨a, b⟩).mp h1⟩
  obtain ⟨f, u, v, hf, huv, hg⟩ := geometric_hahn_banach_compact_closed (boxProd_convex x0 th0 r0) (boxProd_compact x0 th0 r0)
    (boxProd_convex x1 th1 r1) (boxProd_compact x1 th1 r1).isClosed hd
  have lin : ∀ a b : ℝ, f (a, b) = f (1, 0) * a + f (0, 1) * b := by
    intro a b
    have : ((a, b) : ℝ × ℝ) = a • (1, 0) + b • (0, 1) := by ext <;> simp
    rw [this, map_add, map_smul, map_smul, smul_eq_mul, smul_eq_mul]; ring
  refine ⟨⟨f (1, 0), f (0, 1)⟩, u, fun z hz => ?_, fun z hz => ?_⟩
  · have := hf _ ((boxProd_mem _ _ _ z).mpr hz)
    rwa [lin] at this
  · have := hg _ ((boxProd_mem _ _ _ z).mpr hz)
    rw [lin] at this
    exact lt_trans huv this

end Scisim
