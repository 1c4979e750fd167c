import Mathlib.Tactic.Linarith
import Mathlib.Tactic.NormNum
import Mathlib.Tactic.Ring
import Mathlib.Tactic.FieldSimp
import Mathlib.Tactic.LinearCombination
import Mathlib.Tactic.FinCases
import Mathlib.Algebra.Order.BigOperators.Group.Finset
import Mathlib.Analysis.SpecialFunctions.Complex.Arg
import Verif.Spec.Frames
import Verif.Lemmas.Rotations
import Verif.Lemmas.Maps
/-!
# C39 and C40: friction disks and contact frames
-/

namespace Scisim

open Matrix

theorem dot3_exp (a b : Vec3) : a ⬝ᵥ b = a 0 * b 0 + a 1 * b 1 + a 2 * b 2 := by
  simp [dotProduct, Fin.sum_univ_three]

theorem dot3_self_nonneg (a : Vec3) : 0 ≤ a ⬝ᵥ a := by
  rw [dot3_exp]
  nlinarith [mul_self_nonneg (a 0), mul_self_nonneg (a 1), mul_self_nonneg (a 2)]

theorem norm3_eq (a : Vec3) : norm3 a = Real.sqrt (a ⬝ᵥ a) := by
  rw [norm3, dot3_exp]

/-- a vector that is not zero can be normalized -/
theorem normalized3_dot {v : Vec3} (h : 0 < v ⬝ᵥ v) : normalized3 v ⬝ᵥ normalized3 v = 1 ∧ ∃ c, 0 < c ∧ normalized3 v = c • v ∧ c * c * (v ⬝ᵥ v) = 1 := by
  have hp : 0 < norm3 v := by rw [norm3_eq]; exact Real.sqrt_pos.mpr h
  have hs : norm3 v * norm3 v = v ⬝ᵥ v := by rw [norm3_eq]; exact Real.mul_self_sqrt h.le
  have e : normalized3 v = (1 / norm3 v) • v := by
    unfold normalized3
    rw [if_pos hp]
    funext k
    simp only [Pi.smul_apply, smul_eq_mul]
    ring
  have hc : (1 / norm3 v) * (1 / norm3 v) * (v ⬝ᵥ v) = 1 := by
    rw [← hs]; field_simp
  refine ⟨?_, 1 / norm3 v, by positivity, e, hc⟩
  rw [e, dotProduct_smul, smul_dotProduct, smul_eq_mul, smul_eq_mul, ← mul_assoc, hc]

/-- taking away the component along a unit vector leaves an orthogonal vector -/
theorem project_out {n v : Vec3} (hn : n ⬝ᵥ n = 1) (c : ℝ) (hc : c = n ⬝ᵥ v) :
    n ⬝ᵥ (v - c • n) = 0 ∧ (v - c • n) ⬝ᵥ (v - c • n) = v ⬝ᵥ v - c * c := by
  subst hc
  constructor
  · rw [dotProduct_sub, dotProduct_smul, hn, smul_eq_mul, mul_one, sub_self]
  · rw [dotProduct_sub, sub_dotProduct, sub_dotProduct, dotProduct_smul, dotProduct_smul, smul_dotProduct, smul_dotProduct, hn, dotProduct_comm v n]
    simp only [smul_eq_mul]
    ring

theorem squaredNorm3_cross (a b : Vec3) : squaredNorm3 (crossProduct a b) = (a ⬝ᵥ a) * (b ⬝ᵥ b) - (a ⬝ᵥ b) * (a ⬝ᵥ b) := by
  simp only [squaredNorm3, cross3_0, cross3_1, cross3_2, dot3_exp]
  ring

theorem vec3_0 (a b c : ℝ) : (![a, b, c] : Vec3) 0 = a := rfl
theorem vec3_1 (a b c : ℝ) : (![a, b, c] : Vec3) 1 = b := rfl
theorem vec3_2 (a b c : ℝ) : (![a, b, c] : Vec3) 2 = c := rfl

theorem orthogonalVector_spec {n : Vec3} (hn : n ⬝ᵥ n = 1) : orthogonalVector n ⬝ᵥ orthogonalVector n = 1 ∧ n ⬝ᵥ orthogonalVector n = 0 := by
  have key : ∀ e : Vec3, e ⬝ᵥ e = 1 → (n ⬝ᵥ e) * (n ⬝ᵥ e) < 1 →
      normalized3 (e - (n ⬝ᵥ e) • n) ⬝ᵥ normalized3 (e - (n ⬝ᵥ e) • n) = 1 ∧ n ⬝ᵥ normalized3 (e - (n ⬝ᵥ e) • n) = 0 := by
    intro e he hlt
    obtain ⟨h1, h2⟩ := project_out hn (n ⬝ᵥ e) (v := e) rfl
    obtain ⟨h3, c, -, h4, -⟩ := normalized3_dot (v := e - (n ⬝ᵥ e) • n) (by rw [h2, he]; linarith)
    refine ⟨h3, ?_⟩
    rw [h4, dotProduct_smul, h1, smul_zero]
  have hsum : n 0 * n 0 + n 1 * n 1 + n 2 * n 2 = 1 := by rw [← dot3_exp]; exact hn
  have hsq : ∀ a b : ℝ, |a| ≤ |b| → a * a ≤ b * b := by
    intro a b h
    have := mul_self_le_mul_self (abs_nonneg a) h
    rwa [abs_mul_abs_self, abs_mul_abs_self] at this
  unfold orthogonalVector
  by_cases hx : |n 0| ≤ |n 1| ∧ |n 0| ≤ |n 2|
  · simp only [if_pos hx]
    apply key
    · rw [dot3_exp, vec3_0, vec3_1, vec3_2]; norm_num
    · rw [dot3_exp, vec3_0, vec3_1, vec3_2]
      have h1 := hsq _ _ hx.1
      have h2 := hsq _ _ hx.2
      norm_num
      nlinarith
  · simp only [if_neg hx]
    by_cases hy : |n 1| ≤ |n 2|
    · simp only [if_pos hy]
      apply key
      · rw [dot3_exp, vec3_0, vec3_1, vec3_2]; norm_num
      · rw [dot3_exp, vec3_0, vec3_1, vec3_2]
        have h1 := hsq _ _ hy
        norm_num
        nlinarith [mul_self_nonneg (n 0)]
    · simp only [if_neg hy]
      apply key
      · rw [dot3_exp, vec3_0, vec3_1, vec3_2]; norm_num
      · rw [dot3_exp, vec3_0, vec3_1, vec3_2]
        have h1 := hsq _ _ (le_of_lt (not_le.mp hy))
        norm_num
        nlinarith [mul_self_nonneg (n 0)]

/-- the first tangent before it is turned round -/
theorem tangent_spec {n vrel : Vec3} (hn : n ⬝ᵥ n = 1) (h : ¬ squaredNorm3 (crossProduct n vrel) < 1 / 1000000000) :
    0 < (vrel - (vrel ⬝ᵥ n) • n) ⬝ᵥ (vrel - (vrel ⬝ᵥ n) • n) ∧ n ⬝ᵥ (vrel - (vrel ⬝ᵥ n) • n) = 0 := by
  obtain ⟨h1, h2⟩ := project_out hn (vrel ⬝ᵥ n) (v := vrel) (dotProduct_comm _ _)
  refine ⟨?_, h1⟩
  rw [h2]
  rw [squaredNorm3_cross, hn, dotProduct_comm n vrel] at h
  have : (0 : ℝ) < 1 / 1000000000 := by norm_num
  linarith

/-- **C40.** For every unit normal and every relative velocity the contact frame is orthonormal and right handed, with the contact normal first. -/
theorem C40_frame (n vrel : Vec3) (hn : n ⬝ᵥ n = 1) :
    (contactBasis3 n vrel).1 = n ∧ RightHandedFrame (contactBasis3 n vrel).1 (contactBasis3 n vrel).2.1 (contactBasis3 n vrel).2.2 := by
  refine ⟨rfl, ?_⟩
  have hs : ∃ s, contactBasis3 n vrel = (n, s, normalized3 (crossProduct n s)) ∧ s ⬝ᵥ s = 1 ∧ n ⬝ᵥ s = 0 := by
    by_cases h : squaredNorm3 (crossProduct n vrel) < 1 / 1000000000
    · refine ⟨-(orthogonalVector n), by simp only [contactBasis3, if_pos h], ?_, ?_⟩
      · rw [neg_dotProduct_neg]; exact (orthogonalVector_spec hn).1
      · rw [dotProduct_neg, (orthogonalVector_spec hn).2, neg_zero]
    · obtain ⟨h1, h2⟩ := tangent_spec hn h
      obtain ⟨h3, c, -, h4, -⟩ := normalized3_dot h1
      refine ⟨-(normalized3 (vrel - (vrel ⬝ᵥ n) • n)), by simp only [contactBasis3, if_neg h], ?_, ?_⟩
      · rw [neg_dotProduct_neg]; exact h3
      · rw [dotProduct_neg, h4, dotProduct_smul, h2, smul_zero, neg_zero]
  obtain ⟨s, he, h1, h2⟩ := hs
  rw [he]
  have hc : crossProduct n s ⬝ᵥ crossProduct n s = 1 := by
    have := squaredNorm3_cross n s
    rw [hn, h1, h2] at this
    rw [dot3_exp]
    unfold squaredNorm3 at this
    linarith
  have ht : normalized3 (crossProduct n s) = crossProduct n s := by
    apply normalized3_unit
    rw [← hc, dot3_exp]; rfl
  simp only [ht]
  refine ⟨hn, h1, hc, h2, ?_, ?_, rfl⟩
  · simp only [dot3_exp, cross3_0, cross3_1, cross3_2]; ring
  · simp only [dot3_exp, cross3_0, cross3_1, cross3_2]; ring

/-- **C40, the tangents.** The first tangent opposes the relative velocity. Unless the sliding velocity is tiny (below about 3e-5), the relative velocity
has no component along the second tangent, so the frame separates the sliding direction. -/
theorem C40_opposes (n vrel : Vec3) (hn : n ⬝ᵥ n = 1) (h : ¬ squaredNorm3 (crossProduct n vrel) < 1 / 1000000000) :
    (contactBasis3 n vrel).2.1 ⬝ᵥ vrel < 0 ∧ (contactBasis3 n vrel).2.2 ⬝ᵥ vrel = 0 ∧
      vrel - (vrel ⬝ᵥ n) • n = ((contactBasis3 n vrel).2.1 ⬝ᵥ vrel) • (contactBasis3 n vrel).2.1 := by
  obtain ⟨-, hf⟩ := C40_frame n vrel hn
  obtain ⟨h1, h2⟩ := tangent_spec hn h
  obtain ⟨h3, c, hc, h4, h5⟩ := normalized3_dot h1
  set w := vrel - (vrel ⬝ᵥ n) • n with hw
  have es : (contactBasis3 n vrel).2.1 = -(c • w) := by
    rw [← h4]; simp only [contactBasis3, if_neg h]; rfl
  have ev : vrel = w + (vrel ⬝ᵥ n) • n := by rw [hw]; abel
  have hwn : w ⬝ᵥ n = 0 := by rw [dotProduct_comm]; exact h2
  have hwv : w ⬝ᵥ vrel = w ⬝ᵥ w := by
    conv_lhs => rw [ev]
    rw [dotProduct_add, dotProduct_smul, hwn, smul_zero, add_zero]
  refine ⟨?_, ?_, ?_⟩
  · rw [es, neg_dotProduct, smul_dotProduct, hwv, smul_eq_mul]
    have := mul_pos hc h1
    linarith
  · have ht : (contactBasis3 n vrel).2.2 = crossProduct n (contactBasis3 n vrel).2.1 := hf.2.2.2.2.2.2.symm
    rw [ht, es, ev]
    simp only [dot3_exp, cross3_0, cross3_1, cross3_2, Pi.add_apply, Pi.neg_apply, Pi.smul_apply, smul_eq_mul]
    ring
  · rw [es, neg_dotProduct, smul_dotProduct, hwv, smul_eq_mul, neg_smul_neg, smul_smul]
    have : c * (w ⬝ᵥ w) * c = 1 := by rw [← h5]; ring
    rw [this, one_smul]

/-- **C40 in the plane.** For every unit normal the contact frame is orthonormal and right handed, with the normal first. -/
theorem C40_frame_planar {K : Type} [Field K] (n : V2 K) (hn : n.dot n = 1) :
    (contactBasis2 n).1 = n ∧ RightHandedFrame2 (contactBasis2 n).1 (contactBasis2 n).2 := by
  refine ⟨rfl, hn, ?_, ?_, ?_⟩ <;> simp only [contactBasis2, V2.dot, V2.cross] at *
  · linear_combination hn
  · ring
  · linear_combination hn

/-! ## Friction disks -/

theorem frictionDisk_suggestion {n vrel : Vec3} (hn : n ⬝ᵥ n = 1) :
    ∃ w : Vec3, (∀ k i, frictionDisk n vrel k i = generateOrthogonalVectors n k w i) ∧ 0 < (w - (n ⬝ᵥ w) • n) ⬝ᵥ (w - (n ⬝ᵥ w) • n) := by
  by_cases h : squaredNorm3 (crossProduct vrel n) < 1 / 1000000000
  · refine ⟨-(orthogonalVector n), fun k i => by simp only [frictionDisk, if_pos h], ?_⟩
    rw [(project_out hn _ rfl).2, neg_dotProduct_neg, dotProduct_neg, (orthogonalVector_spec hn).1, (orthogonalVector_spec hn).2]
    norm_num
  · refine ⟨-vrel, fun k i => by simp only [frictionDisk, if_neg h], ?_⟩
    rw [(project_out hn _ rfl).2, neg_dotProduct_neg, dotProduct_neg]
    rw [squaredNorm3_cross, hn, dotProduct_comm vrel n] at h
    have : (0 : ℝ) < 1 / 1000000000 := by norm_num
    nlinarith

theorem rotation_dot {R : Mat3} (hR : IsRotation R) (a b : Vec3) : (R *ᵥ a) ⬝ᵥ (R *ᵥ b) = a ⬝ᵥ b := by
  rw [Matrix.dotProduct_mulVec, Matrix.vecMul_mulVec, hR.2.1, Matrix.vecMul_one]

theorem angleAxis_fixes (t : ℝ) (n : Vec3) (hn : n ⬝ᵥ n = 1) : angleAxisMatrix t n *ᵥ n = n := by
  rw [dot3_exp] at hn
  funext k
  fin_cases k <;> simp [angleAxisMatrix, Matrix.mulVec, dotProduct, Fin.sum_univ_three]
  · linear_combination ((1 - Real.cos t) * n 0) * hn
  · linear_combination ((1 - Real.cos t) * n 1) * hn
  · linear_combination ((1 - Real.cos t) * n 2) * hn

/-- **C39, the sampled directions.** Every direction in which friction is sampled is a unit vector orthogonal to the contact normal, for every unit normal,
every relative velocity and any number of samples. -/
theorem C39_directions (n vrel : Vec3) (hn : n ⬝ᵥ n = 1) (k i : Nat) :
    frictionDisk n vrel k i ⬝ᵥ frictionDisk n vrel k i = 1 ∧ n ⬝ᵥ frictionDisk n vrel k i = 0 := by
  obtain ⟨w, hw, hpos⟩ := frictionDisk_suggestion (vrel := vrel) hn
  rw [hw]
  obtain ⟨h1, c, -, h2, -⟩ := normalized3_dot hpos
  have h3 : n ⬝ᵥ normalized3 (w - (n ⬝ᵥ w) • n) = 0 := by
    rw [h2, dotProduct_smul, (project_out hn _ rfl).1, smul_zero]
  have hlen : len2 n = 1 := by rw [← hn, dot3_exp]; rfl
  unfold generateOrthogonalVectors
  by_cases hi : i = 0
  · simp only [if_pos hi]; exact ⟨h1, h3⟩
  · simp only [if_neg hi]
    have hR := angleAxis_isRotation ((i : ℝ) * (2 * Real.pi / (k : ℝ))) n hlen
    refine ⟨by rw [rotation_dot hR, h1], ?_⟩
    have := rotation_dot hR n (normalized3 (w - (n ⬝ᵥ w) • n))
    rwa [angleAxis_fixes _ n hn, h3] at this

/-- the entries of the constraint matrix -/
theorem disk_inner (k col m : Nat) (E : Nat → Nat → ℝ) (r c : Nat) :
    (List.range m).foldl (fun E s => insertOne E (k * col + s) col) E r c = if (∃ s < m, r = k * col + s) ∧ c = col then 1 else E r c := by
  induction m with
  | zero => simp
  | succ m ih =>
    rw [List.range_succ, List.foldl_append]
    simp only [List.foldl_cons, List.foldl_nil, insertOne]
    by_cases h1 : r = k * col + m ∧ c = col
    · rw [if_pos h1, if_pos ⟨⟨m, by omega, h1.1⟩, h1.2⟩]
    · rw [if_neg h1, ih]
      by_cases h2 : (∃ s < m, r = k * col + s) ∧ c = col
      · obtain ⟨⟨s, hs, e⟩, hc⟩ := h2
        rw [if_pos ⟨⟨s, hs, e⟩, hc⟩, if_pos ⟨⟨s, by omega, e⟩, hc⟩]
      · rw [if_neg h2, if_neg]
        rintro ⟨⟨s, hs, e⟩, hc⟩
        rcases Nat.lt_or_ge s m with h | h
        · exact h2 ⟨⟨s, h, e⟩, hc⟩
        · have : s = m := by omega
          subst this
          exact h1 ⟨e, hc⟩

theorem disk_entries (k m r c : Nat) : formLinearFrictionDiskConstraint k m r c = if (∃ s < k, r = k * c + s) ∧ c < m then 1 else 0 := by
  unfold formLinearFrictionDiskConstraint
  induction m with
  | zero => simp
  | succ m ih =>
    rw [List.range_succ, List.foldl_append]
    simp only [List.foldl_cons, List.foldl_nil]
    rw [disk_inner]
    by_cases h1 : (∃ s < k, r = k * m + s) ∧ c = m
    · rw [if_pos h1, if_pos ⟨by rw [h1.2]; exact h1.1, by omega⟩]
    · rw [if_neg h1, ih]
      by_cases h2 : (∃ s < k, r = k * c + s) ∧ c < m
      · rw [if_pos h2, if_pos ⟨h2.1, by omega⟩]
      · rw [if_neg h2, if_neg]
        rintro ⟨hs, hc⟩
        rcases Nat.lt_or_ge c m with h | h
        · exact h2 ⟨hs, h⟩
        · have : c = m := by omega
          subst this
          exact h1 ⟨hs, rfl⟩

theorem disk_row_sum (k m c : Nat) (hc : c < m) (beta : Nat → ℝ) :
    ∑ r ∈ Finset.range (k * m), formLinearFrictionDiskConstraint k m r c * beta r = ∑ s ∈ Finset.range k, beta (k * c + s) := by
  have e : ∑ s ∈ Finset.range k, beta (k * c + s) = ∑ r ∈ (Finset.range k).image (fun s => k * c + s), beta r := by
    rw [Finset.sum_image]
    intro a _ b _ h
    dsimp only at h
    omega
  rw [e, ← Finset.sum_subset (s₁ := (Finset.range k).image fun s => k * c + s) (s₂ := Finset.range (k * m))]
  · apply Finset.sum_congr rfl
    intro r hr
    rw [Finset.mem_image] at hr
    obtain ⟨s, hs, rfl⟩ := hr
    rw [disk_entries, if_pos ⟨⟨s, Finset.mem_range.mp hs, rfl⟩, hc⟩, one_mul]
  · intro r hr
    rw [Finset.mem_image] at hr
    obtain ⟨s, hs, rfl⟩ := hr
    rw [Finset.mem_range] at *
    calc k * c + s < k * c + k := by omega
      _ = k * (c + 1) := by ring
      _ ≤ k * m := Nat.mul_le_mul_left _ (by omega)
  · intro r _ hn
    rw [disk_entries, if_neg, zero_mul]
    rintro ⟨⟨s, hs, e⟩, -⟩
    exact hn (Finset.mem_image.mpr ⟨s, Finset.mem_range.mpr hs, e.symm⟩)

/-- **C39, what the constraint says.** Friction impulses are admitted exactly if none is negative and those of each contact add up to at most the friction
coefficient times the normal impulse. -/
theorem C39_constraint (k m : Nat) (mu alpha beta : Nat → ℝ) :
    linearFrictionAdmissible k m mu alpha beta ↔
      (∀ i < k * m, 0 ≤ beta i) ∧ ∀ c < m, ∑ s ∈ Finset.range k, beta (k * c + s) ≤ mu c * alpha c := by
  unfold linearFrictionAdmissible
  refine and_congr_right fun _ => forall_congr' fun c => forall_congr' fun hc => ?_
  rw [disk_row_sum k m c hc]
  constructor <;> intro h <;> linarith

theorem dot_unit_le {a b : Vec3} (ha : a ⬝ᵥ a = 1) (hb : b ⬝ᵥ b = 1) : a ⬝ᵥ b ≤ 1 := by
  have := dot3_self_nonneg (a - b)
  rw [dotProduct_sub, sub_dotProduct, sub_dotProduct, ha, hb, dotProduct_comm b a] at this
  linarith

/-- a combination of unit vectors is no longer than the sum of the coefficients -/
theorem hull_bound (k : Nat) (dir : Nat → Vec3) (hdir : ∀ s < k, dir s ⬝ᵥ dir s = 1) (x : Nat → ℝ) (hx : ∀ s < k, 0 ≤ x s) :
    (∑ s ∈ Finset.range k, x s • dir s) ⬝ᵥ (∑ s ∈ Finset.range k, x s • dir s) ≤ (∑ s ∈ Finset.range k, x s) * ∑ s ∈ Finset.range k, x s := by
  rw [sum_dotProduct, Finset.sum_mul]
  apply Finset.sum_le_sum
  intro s hs
  rw [dotProduct_sum, Finset.mul_sum]
  apply Finset.sum_le_sum
  intro t ht
  rw [smul_dotProduct, dotProduct_smul, smul_eq_mul, smul_eq_mul, ← mul_assoc]
  have h1 := dot_unit_le (hdir s (Finset.mem_range.mp hs)) (hdir t (Finset.mem_range.mp ht))
  have h2 := mul_nonneg (hx s (Finset.mem_range.mp hs)) (hx t (Finset.mem_range.mp ht))
  calc x s * x t * (dir s ⬝ᵥ dir t) ≤ x s * x t * 1 := mul_le_mul_of_nonneg_left h1 h2
    _ = x s * x t := mul_one _

/-- **C39.** For any number of contacts and of sampled directions: if the friction impulses satisfy the linear constraints, then at every contact the
friction impulse lies in the tangent plane and its magnitude is at most the friction coefficient times the normal impulse. -/
theorem C39_inside_disk (k m : Nat) (n vrel : Nat → Vec3) (hn : ∀ c < m, n c ⬝ᵥ n c = 1) (mu alpha beta : Nat → ℝ)
    (h : linearFrictionAdmissible k m mu alpha beta) (c : Nat) (hc : c < m) :
    norm3 (sampledFriction k (frictionDisk (n c) (vrel c) k) beta c) ≤ mu c * alpha c ∧
      n c ⬝ᵥ sampledFriction k (frictionDisk (n c) (vrel c) k) beta c = 0 := by
  rw [C39_constraint] at h
  obtain ⟨hb, hs⟩ := h
  have hx : ∀ s < k, 0 ≤ beta (k * c + s) := by
    intro s hs
    apply hb
    calc k * c + s < k * c + k := by omega
      _ = k * (c + 1) := by ring
      _ ≤ k * m := Nat.mul_le_mul_left _ (by omega)
  have hsum : 0 ≤ ∑ s ∈ Finset.range k, beta (k * c + s) := Finset.sum_nonneg fun s hs => hx s (Finset.mem_range.mp hs)
  constructor
  · have := hull_bound k (frictionDisk (n c) (vrel c) k) (fun s _ => (C39_directions _ _ (hn c hc) _ _).1) (fun s => beta (k * c + s)) hx
    rw [norm3_eq]
    calc Real.sqrt _ ≤ Real.sqrt ((∑ s ∈ Finset.range k, beta (k * c + s)) * ∑ s ∈ Finset.range k, beta (k * c + s)) := Real.sqrt_le_sqrt this
      _ = ∑ s ∈ Finset.range k, beta (k * c + s) := Real.sqrt_mul_self hsum
      _ ≤ _ := hs c hc
  · unfold sampledFriction
    rw [dotProduct_sum]
    apply Finset.sum_eq_zero
    intro s _
    rw [dotProduct_smul, (C39_directions _ _ (hn c hc) _ _).2, smul_zero]

/-! ### How much of the disk is covered -/

theorem angleAxis_tangent (t : ℝ) (n d : Vec3) (hd : n ⬝ᵥ d = 0) :
    angleAxisMatrix t n *ᵥ d = Real.cos t • d + Real.sin t • crossProduct n d := by
  rw [dot3_exp] at hd
  funext k
  fin_cases k <;> simp [angleAxisMatrix, Matrix.mulVec, dotProduct, Fin.sum_univ_three, cross3_0, cross3_1, cross3_2]
  · linear_combination ((1 - Real.cos t) * n 0) * hd
  · linear_combination ((1 - Real.cos t) * n 1) * hd
  · linear_combination ((1 - Real.cos t) * n 2) * hd

/-- the directions are the corners of a regular polygon -/
theorem frictionDisk_polygon {n vrel : Vec3} (hn : n ⬝ᵥ n = 1) :
    ∃ d : Vec3, d ⬝ᵥ d = 1 ∧ n ⬝ᵥ d = 0 ∧ ∀ k i : Nat,
      frictionDisk n vrel k i = Real.cos ((i : ℝ) * (2 * Real.pi / (k : ℝ))) • d + Real.sin ((i : ℝ) * (2 * Real.pi / (k : ℝ))) • crossProduct n d := by
  obtain ⟨w, hw, hpos⟩ := frictionDisk_suggestion (vrel := vrel) hn
  obtain ⟨h1, c, -, h2, -⟩ := normalized3_dot hpos
  have h3 : n ⬝ᵥ normalized3 (w - (n ⬝ᵥ w) • n) = 0 := by
    rw [h2, dotProduct_smul, (project_out hn _ rfl).1, smul_zero]
  refine ⟨_, h1, h3, fun k i => ?_⟩
  rw [hw]
  unfold generateOrthogonalVectors
  by_cases hi : i = 0
  · simp only [if_pos hi]
    rw [hi, Nat.cast_zero, zero_mul, Real.cos_zero, Real.sin_zero, one_smul, zero_smul, add_zero]
  · simp only [if_neg hi]
    exact angleAxis_tangent _ _ _ h3

theorem tangent_expand {n d F : Vec3} (hn : n ⬝ᵥ n = 1) (hd : d ⬝ᵥ d = 1) (hnd : n ⬝ᵥ d = 0) (hF : n ⬝ᵥ F = 0) :
    F = (F ⬝ᵥ d) • d + (F ⬝ᵥ crossProduct n d) • crossProduct n d := by
  -- the Gram identity for the frame (n, d, n × d)
  have key : ∀ k : Fin 3, F k = (n ⬝ᵥ F) * n k + (F ⬝ᵥ d) * d k + (F ⬝ᵥ crossProduct n d) * crossProduct n d k := by
    have hM : (Matrix.of ![n, d, crossProduct n d] : Mat3) * (Matrix.of ![n, d, crossProduct n d] : Mat3)ᵀ = 1 := by
      have hc : crossProduct n d ⬝ᵥ crossProduct n d = 1 := by
        have := squaredNorm3_cross n d
        rw [hn, hd, hnd] at this
        rw [dot3_exp]; unfold squaredNorm3 at this; linarith
      have h1 : n ⬝ᵥ crossProduct n d = 0 := by simp only [dot3_exp, cross3_0, cross3_1, cross3_2]; ring
      have h2 : d ⬝ᵥ crossProduct n d = 0 := by simp only [dot3_exp, cross3_0, cross3_1, cross3_2]; ring
      ext i j
      have e : ((Matrix.of ![n, d, crossProduct n d] : Mat3) * (Matrix.of ![n, d, crossProduct n d] : Mat3)ᵀ) i j
          = (![n, d, crossProduct n d] i) ⬝ᵥ (![n, d, crossProduct n d] j) := rfl
      rw [e]
      fin_cases i <;> fin_cases j
      · exact hn
      · exact hnd
      · exact h1
      · exact (dotProduct_comm _ _).trans hnd
      · exact hd
      · exact h2
      · exact (dotProduct_comm _ _).trans h1
      · exact (dotProduct_comm _ _).trans h2
      · exact hc
    have hM' := mul_eq_one_comm.mp hM
    intro k
    have : F k = (((Matrix.of ![n, d, crossProduct n d] : Mat3)ᵀ * (Matrix.of ![n, d, crossProduct n d] : Mat3)) *ᵥ F) k := by
      rw [hM', Matrix.one_mulVec]
    rw [this, ← Matrix.mulVec_mulVec]
    have e : ∀ x : Vec3, ((Matrix.of ![n, d, crossProduct n d] : Mat3)ᵀ *ᵥ x) k = n k * x 0 + d k * x 1 + crossProduct n d k * x 2 := by
      intro x
      rw [Matrix.mulVec, dotProduct, Fin.sum_univ_three]; rfl
    rw [e]
    have e0 : ((Matrix.of ![n, d, crossProduct n d] : Mat3) *ᵥ F) 0 = n ⬝ᵥ F := rfl
    have e1 : ((Matrix.of ![n, d, crossProduct n d] : Mat3) *ᵥ F) 1 = d ⬝ᵥ F := rfl
    have e2 : ((Matrix.of ![n, d, crossProduct n d] : Mat3) *ᵥ F) 2 = crossProduct n d ⬝ᵥ F := rfl
    rw [e0, e1, e2, dotProduct_comm d F, dotProduct_comm (crossProduct n d) F]
    ring
  funext k
  rw [key k, hF]
  simp only [Pi.add_apply, Pi.smul_apply, smul_eq_mul]
  ring

/-- polar coordinates with an angle in `[0, 2 pi)` -/
theorem polar (a b : ℝ) : ∃ r phi, 0 ≤ r ∧ 0 ≤ phi ∧ phi < 2 * Real.pi ∧ a = r * Real.cos phi ∧ b = r * Real.sin phi ∧ r * r = a * a + b * b := by
  have hx : a = ‖(⟨a, b⟩ : ℂ)‖ * Real.cos (Complex.arg ⟨a, b⟩) := (Complex.norm_mul_cos_arg ⟨a, b⟩).symm
  have hy : b = ‖(⟨a, b⟩ : ℂ)‖ * Real.sin (Complex.arg ⟨a, b⟩) := (Complex.norm_mul_sin_arg ⟨a, b⟩).symm
  have hr : ‖(⟨a, b⟩ : ℂ)‖ * ‖(⟨a, b⟩ : ℂ)‖ = a * a + b * b := by
    rw [← sq, ← Complex.normSq_eq_norm_sq, Complex.normSq_apply]
  have h1 := Complex.neg_pi_lt_arg ⟨a, b⟩
  have h2 := Complex.arg_le_pi ⟨a, b⟩
  have hpi := Real.pi_pos
  rcases le_or_gt 0 (Complex.arg ⟨a, b⟩) with h | h
  · exact ⟨_, _, norm_nonneg _, h, by linarith, hx, hy, hr⟩
  · refine ⟨_, Complex.arg ⟨a, b⟩ + 2 * Real.pi, norm_nonneg _, by linarith, by linarith, ?_, ?_, hr⟩
    · rw [Real.cos_add_two_pi]; exact hx
    · rw [Real.sin_add_two_pi]; exact hy

/-- every tangent vector is a combination, with coefficients that are not negative, of neighbouring directions -/
theorem polygon_covers {n vrel F : Vec3} (hn : n ⬝ᵥ n = 1) (hF : n ⬝ᵥ F = 0) {k : Nat} (hk : 3 ≤ k) :
    ∃ x : Nat → ℝ, (∀ s, 0 ≤ x s) ∧ ∑ s ∈ Finset.range k, x s • frictionDisk n vrel k s = F ∧
      Real.cos (Real.pi / k) * ∑ s ∈ Finset.range k, x s ≤ norm3 F := by
  obtain ⟨d, hd, hnd, hdir⟩ := frictionDisk_polygon (vrel := vrel) hn
  have hexp := tangent_expand hn hd hnd hF
  obtain ⟨r, phi, hr, hp0, hp1, ha, hb, hrr⟩ := polar (F ⬝ᵥ d) (F ⬝ᵥ crossProduct n d)
  have hkpos : (0 : ℝ) < k := by exact_mod_cast (by omega : 0 < k)
  have hk3 : (3 : ℝ) ≤ k := by exact_mod_cast hk
  have hpi := Real.pi_pos
  set th := 2 * Real.pi / (k : ℝ) with hth
  have hthpos : 0 < th := by positivity
  have hkth : (k : ℝ) * th = 2 * Real.pi := by rw [hth]; field_simp
  have hhalf : Real.pi / (k : ℝ) = th / 2 := by rw [hth]; ring
  have hth2 : th / 2 ≤ Real.pi / 3 := by rw [← hhalf]; exact div_le_div_of_nonneg_left hpi.le (by norm_num) hk3
  -- the sector of the angle
  set i := ⌊phi / th⌋₊ with hi
  have hfl := Nat.floor_le (div_nonneg hp0 hthpos.le)
  have hfu := Nat.lt_floor_add_one (phi / th)
  rw [← hi] at hfl hfu
  have hlo : (i : ℝ) * th ≤ phi := by rwa [le_div_iff₀ hthpos] at hfl
  have hup : phi < ((i : ℝ) + 1) * th := by rwa [div_lt_iff₀ hthpos] at hfu
  have hik : i < k := by
    by_contra h
    have : (k : ℝ) ≤ i := by exact_mod_cast not_lt.mp h
    have := mul_le_mul_of_nonneg_right this hthpos.le
    linarith
  set j := (i + 1) % k with hj
  have hjk : j < k := Nat.mod_lt _ (by omega)
  have hij : i ≠ j := by
    rw [hj]
    rcases Nat.lt_or_ge (i + 1) k with h | h
    · rw [Nat.mod_eq_of_lt h]; omega
    · have : i + 1 = k := by omega
      rw [this, Nat.mod_self]; omega
  have hdj : frictionDisk n vrel k j = Real.cos (((i : ℝ) + 1) * th) • d + Real.sin (((i : ℝ) + 1) * th) • crossProduct n d := by
    rw [hdir, ← hth, hj]
    rcases Nat.lt_or_ge (i + 1) k with h | h
    · rw [Nat.mod_eq_of_lt h]; push_cast; rfl
    · have e : i + 1 = k := by omega
      have e' : (i : ℝ) + 1 = k := by exact_mod_cast e
      rw [e', hkth, e, Nat.mod_self, Nat.cast_zero, zero_mul, Real.cos_zero, Real.sin_zero, Real.cos_two_pi, Real.sin_two_pi]
  set dl := phi - (i : ℝ) * th with hdl
  have hdl0 : 0 ≤ dl := by rw [hdl]; linarith
  have hdl1 : dl ≤ th := by rw [hdl]; linarith
  have hs2 : 0 < Real.sin (th / 2) := Real.sin_pos_of_pos_of_lt_pi (by linarith) (by linarith)
  have hc2 : 0 < Real.cos (th / 2) := Real.cos_pos_of_mem_Ioo ⟨by linarith, by linarith⟩
  have hst : Real.sin th = 2 * Real.sin (th / 2) * Real.cos (th / 2) := by
    have := Real.sin_two_mul (th / 2)
    rwa [show 2 * (th / 2) = th by ring] at this
  have hstpos : 0 < Real.sin th := by rw [hst]; positivity
  have hsd : 0 ≤ Real.sin dl := Real.sin_nonneg_of_nonneg_of_le_pi hdl0 (by linarith)
  have hsd' : 0 ≤ Real.sin (th - dl) := Real.sin_nonneg_of_nonneg_of_le_pi (by linarith) (by linarith)
  -- the coefficients
  set x : Nat → ℝ := fun s => (if s = i then r * (Real.sin (th - dl) / Real.sin th) else 0) + (if s = j then r * (Real.sin dl / Real.sin th) else 0) with hx
  refine ⟨x, ?_, ?_, ?_⟩
  · intro s
    rw [hx]
    have h1 : 0 ≤ r * (Real.sin (th - dl) / Real.sin th) := mul_nonneg hr (div_nonneg hsd' hstpos.le)
    have h2 : 0 ≤ r * (Real.sin dl / Real.sin th) := mul_nonneg hr (div_nonneg hsd hstpos.le)
    dsimp only
    apply add_nonneg
    · by_cases h : s = i
      · rw [if_pos h]; exact h1
      · rw [if_neg h]
    · by_cases h : s = j
      · rw [if_pos h]; exact h2
      · rw [if_neg h]
  · rw [hx]
    simp only [add_smul, Finset.sum_add_distrib, ite_smul, zero_smul, Finset.sum_ite_eq', Finset.mem_range, if_pos hik, if_pos hjk]
    rw [hdj, hdir, ← hth]
    conv_rhs => rw [hexp, ha, hb]
    have hphi : phi = (i : ℝ) * th + dl := by rw [hdl]; ring
    have e1 : ((i : ℝ) + 1) * th = (i : ℝ) * th + th := by ring
    rw [hphi, e1]
    have hne : Real.sin th ≠ 0 := hstpos.ne'
    have p1 := Real.sin_sq_add_cos_sq th
    have h1 : Real.sin (th - dl) / Real.sin th * Real.cos ((i : ℝ) * th) + Real.sin dl / Real.sin th * Real.cos ((i : ℝ) * th + th)
        = Real.cos ((i : ℝ) * th + dl) := by
      rw [Real.cos_add, Real.cos_add, Real.sin_sub]
      field_simp
      ring
    have h2 : Real.sin (th - dl) / Real.sin th * Real.sin ((i : ℝ) * th) + Real.sin dl / Real.sin th * Real.sin ((i : ℝ) * th + th)
        = Real.sin ((i : ℝ) * th + dl) := by
      rw [Real.sin_add, Real.sin_add, Real.sin_sub]
      field_simp
      ring
    rw [← h1, ← h2]
    funext q
    simp only [Pi.add_apply, Pi.smul_apply, smul_eq_mul]
    ring
  · rw [hx]
    simp only [Finset.sum_add_distrib, Finset.sum_ite_eq', Finset.mem_range, if_pos hik, if_pos hjk]
    have hnorm : norm3 F = r := by
      rw [norm3_eq]
      have : F ⬝ᵥ F = r * r := by
        rw [hrr]
        have : F ⬝ᵥ F = ((F ⬝ᵥ d) • d + (F ⬝ᵥ crossProduct n d) • crossProduct n d) ⬝ᵥ F := by rw [← hexp]
        rw [this, add_dotProduct, smul_dotProduct, smul_dotProduct, dotProduct_comm d F, dotProduct_comm (crossProduct n d) F]
        rfl
      rw [this, Real.sqrt_mul_self hr]
    rw [hnorm, hhalf]
    have hsum : Real.sin (th - dl) + Real.sin dl = 2 * Real.sin (th / 2) * Real.cos (th / 2 - dl) := by
      have e1 : Real.sin (th - dl) = Real.sin (th / 2 + (th / 2 - dl)) := by congr 1; ring
      have e2 : Real.sin dl = Real.sin (th / 2 - (th / 2 - dl)) := by congr 1; ring
      rw [e1, e2, Real.sin_add, Real.sin_sub (th / 2) (th / 2 - dl)]
      ring
    have : Real.cos (th / 2) * (r * (Real.sin (th - dl) / Real.sin th) + r * (Real.sin dl / Real.sin th)) = r * Real.cos (th / 2 - dl) := by
      rw [← mul_add, ← add_div, hsum, hst]
      field_simp
    rw [this]
    calc r * Real.cos (th / 2 - dl) ≤ r * 1 := mul_le_mul_of_nonneg_left (Real.cos_le_one _) hr
      _ = r := mul_one r

/-- **C39, the constraint is not too tight.** With at least three directions every choice of tangential impulses no longer than `cos (pi / k)` times the
Coulomb bound is admitted at all contacts together: the admitted impulses fill the inscribed disk of a regular polygon with `k` corners. -/
theorem C39_covers (k m : Nat) (hk : 3 ≤ k) (n vrel : Nat → Vec3) (hn : ∀ c < m, n c ⬝ᵥ n c = 1) (mu alpha : Nat → ℝ) (F : Nat → Vec3)
    (hF : ∀ c < m, n c ⬝ᵥ F c = 0 ∧ norm3 (F c) ≤ Real.cos (Real.pi / k) * (mu c * alpha c)) :
    ∃ beta, linearFrictionAdmissible k m mu alpha beta ∧ ∀ c < m, sampledFriction k (frictionDisk (n c) (vrel c) k) beta c = F c := by
  have hx : ∀ c, ∃ x : Nat → ℝ, c < m → (∀ s, 0 ≤ x s) ∧ ∑ s ∈ Finset.range k, x s • frictionDisk (n c) (vrel c) k s = F c ∧
      Real.cos (Real.pi / k) * ∑ s ∈ Finset.range k, x s ≤ norm3 (F c) := by
    intro c
    by_cases hc : c < m
    · obtain ⟨x, h⟩ := polygon_covers (vrel := vrel c) (hn c hc) (hF c hc).1 hk
      exact ⟨x, fun _ => h⟩
    · exact ⟨fun _ => 0, fun h => absurd h hc⟩
  choose x hx using hx
  have hblock : ∀ c s, s < k → (k * c + s) / k = c ∧ (k * c + s) % k = s := by
    intro c s hs
    rw [Nat.mul_add_div (by omega), Nat.mul_add_mod, Nat.div_eq_of_lt hs, Nat.mod_eq_of_lt hs]
    exact ⟨by omega, rfl⟩
  refine ⟨fun i => x (i / k) (i % k), ?_, ?_⟩
  · rw [C39_constraint]
    constructor
    · intro i hi
      exact (hx _ (Nat.div_lt_of_lt_mul hi)).1 _
    · intro c hc
      have e : ∑ s ∈ Finset.range k, x ((k * c + s) / k) ((k * c + s) % k) = ∑ s ∈ Finset.range k, x c s := by
        apply Finset.sum_congr rfl
        intro s hs
        rw [(hblock c s (Finset.mem_range.mp hs)).1, (hblock c s (Finset.mem_range.mp hs)).2]
      rw [e]
      have hcos : 0 < Real.cos (Real.pi / k) := by
        have hk3 : (3 : ℝ) ≤ k := by exact_mod_cast hk
        have hpi := Real.pi_pos
        have h1 : Real.pi / k ≤ Real.pi / 3 := div_le_div_of_nonneg_left hpi.le (by norm_num) hk3
        have h2 : 0 < Real.pi / k := div_pos hpi (by linarith)
        exact Real.cos_pos_of_mem_Ioo ⟨by linarith, by linarith⟩
      exact le_of_mul_le_mul_left ((hx c hc).2.2.trans (hF c hc).2) hcos
  · intro c hc
    rw [← (hx c hc).2.1]
    unfold sampledFriction
    apply Finset.sum_congr rfl
    intro s hs
    dsimp only
    rw [(hblock c s (Finset.mem_range.mp hs)).1, (hblock c s (Finset.mem_range.mp hs)).2]

/-- **C39 in the plane.** With bound constraints the single friction impulse along the contact tangent has magnitude at most the friction coefficient times the
normal impulse and no component along the normal; and every such tangential impulse is admitted. -/
theorem C39_planar (m : Nat) (n : Nat → V2 ℝ) (hn : ∀ c < m, (n c).dot (n c) = 1) (mu alpha beta : Nat → ℝ) :
    boundFrictionAdmissible m mu alpha beta ↔
      ∀ c < m, Real.sqrt ((beta c • (contactBasis2 (n c)).2).normSq) ≤ mu c * alpha c ∧ (n c).dot (beta c • (contactBasis2 (n c)).2) = 0 := by
  have hlen : ∀ c < m, (beta c • (contactBasis2 (n c)).2).normSq = beta c * beta c := by
    intro c hc
    have := hn c hc
    simp only [V2.dot] at this
    show (beta c * -(n c).y) * (beta c * -(n c).y) + (beta c * (n c).x) * (beta c * (n c).x) = _
    linear_combination (beta c * beta c) * this
  unfold boundFrictionAdmissible
  refine forall_congr' fun c => forall_congr' fun hc => ?_
  rw [hlen c hc, Real.sqrt_mul_self_eq_abs, abs_le]
  constructor
  · rintro ⟨h1, h2⟩
    refine ⟨⟨h1, by linarith⟩, ?_⟩
    show (n c).x * (beta c * -(n c).y) + (n c).y * (beta c * (n c).x) = 0
    ring
  · rintro ⟨⟨h1, h2⟩, -⟩
    exact ⟨h1, by linarith⟩

/-! ## Cases that meet the hypotheses -/

/-- a slanted normal with a relative velocity that is not along it -/
example : (![3 / 5, 0, 4 / 5] : Vec3) ⬝ᵥ ![3 / 5, 0, 4 / 5] = 1 ∧ ¬ squaredNorm3 (crossProduct ![3 / 5, 0, 4 / 5] (![0, 2, 1] : Vec3)) < 1 / 1000000000 := by
  rw [dot3_exp, squaredNorm3]
  simp only [cross3_0, cross3_1, cross3_2, vec3_0, vec3_1, vec3_2]
  norm_num

/-- a vertical normal with a vertical relative velocity: the degenerate branch -/
example : squaredNorm3 (crossProduct (![0, 0, 1] : Vec3) (![0, 0, -2] : Vec3)) < 1 / 1000000000 := by
  rw [squaredNorm3]
  simp only [cross3_0, cross3_1, cross3_2, vec3_0, vec3_1, vec3_2]
  norm_num

/-- two contacts, four directions each, impulses that are admitted at the limit -/
example : linearFrictionAdmissible 4 2 (fun _ => 1 / 2) (fun _ => 4) (fun i => if i = 0 then 1 else if i = 3 then 1 else if i = 5 then 2 else 0) := by
  rw [C39_constraint]
  constructor
  · intro i _
    by_cases h : i = 0
    · rw [if_pos h]; norm_num
    · rw [if_neg h]
      by_cases h : i = 3
      · rw [if_pos h]; norm_num
      · rw [if_neg h]
        by_cases h : i = 5
        · rw [if_pos h]; norm_num
        · rw [if_neg h]
  · intro c hc
    rcases (by omega : c = 0 ∨ c = 1) with rfl | rfl <;> norm_num [Finset.sum_range_succ]

/-- a unit normal of the plane that is not along an axis -/
example : (⟨3 / 5, -4 / 5⟩ : V2 ℝ).dot ⟨3 / 5, -4 / 5⟩ = 1 := by
  norm_num [V2.dot]

end Scisim
