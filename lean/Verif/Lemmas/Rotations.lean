import Mathlib.Tactic.FinCases
import Mathlib.LinearAlgebra.Matrix.Adjugate
import Mathlib.Tactic.NoncommRing
import Mathlib.Tactic.FieldSimp
import Mathlib.Tactic.LinearCombination
import Verif.Spec.Rotations
/-!
# Lemmas about rotations
-/

namespace Scisim

open Matrix

/-! ## Rodrigues matrices -/

/-- cross product matrix -/
def crossM (u : Vec3) : Mat3 := !![0, -u 2, u 1; u 2, 0, -u 0; -u 1, u 0, 0]

/-- squared length -/
def len2 (u : Vec3) : ℝ := u 0 * u 0 + u 1 * u 1 + u 2 * u 2

theorem crossM_transpose (u : Vec3) : (crossM u)ᵀ = -crossM u := by
  ext i j; fin_cases i <;> fin_cases j <;> simp [crossM]

theorem crossM_cube (u : Vec3) : crossM u * crossM u * crossM u = (-len2 u) • crossM u := by
  ext i j
  fin_cases i <;> fin_cases j <;> simp [crossM, len2, Matrix.mul_apply, Fin.sum_univ_three] <;> ring

/-- `1 + a K + b K²` -/
def rod (a b : ℝ) (u : Vec3) : Mat3 := 1 + a • crossM u + b • (crossM u * crossM u)

theorem rod_transpose (a b : ℝ) (u : Vec3) : (rod a b u)ᵀ = rod (-a) b u := by
  unfold rod
  simp [Matrix.transpose_add, Matrix.transpose_smul, Matrix.transpose_mul, crossM_transpose]

theorem rod_mul (a b c d : ℝ) (u : Vec3) :
    rod a b u * rod c d u = rod (a + c - (a * d + b * c) * len2 u) (b + d + a * c - b * d * len2 u) u := by
  have h3 := crossM_cube u
  have h4 : crossM u * crossM u * (crossM u * crossM u) = (-len2 u) • (crossM u * crossM u) := by
    rw [← Matrix.mul_assoc, h3, Matrix.smul_mul]
  have h3' : crossM u * (crossM u * crossM u) = (-len2 u) • crossM u := by rw [← Matrix.mul_assoc, h3]
  unfold rod
  simp only [add_mul, mul_add, one_mul, mul_one, Matrix.smul_mul, Matrix.mul_smul, h3, h3', h4, smul_smul]
  module

theorem rod_zero (u : Vec3) : rod 0 0 u = 1 := by simp [rod]

theorem rod_det (a b : ℝ) (u : Vec3) : (rod a b u).det = (1 - b * len2 u) ^ 2 + a ^ 2 * len2 u := by
  rw [Matrix.det_fin_three]
  simp [rod, crossM, len2, Matrix.mul_apply, Fin.sum_univ_three, Matrix.one_apply]
  ring

theorem rod_isRotation (a b : ℝ) (u : Vec3) (h : 2 * b = a ^ 2 + b ^ 2 * len2 u) : IsRotation (rod a b u) := by
  have e1 : -a + a = 0 := by ring
  refine ⟨?_, ?_, ?_⟩
  · rw [rod_transpose, rod_mul, ← rod_zero u]; congr 1
    · ring
    · linear_combination h
  · rw [rod_transpose, rod_mul, ← rod_zero u]; congr 1
    · ring
    · linear_combination h
  · rw [rod_det]; linear_combination -len2 u * h

theorem IsRotation.one : IsRotation 1 := by simp [IsRotation]

theorem IsRotation.mul {A B : Mat3} (hA : IsRotation A) (hB : IsRotation B) : IsRotation (A * B) := by
  obtain ⟨a1, a2, a3⟩ := hA
  obtain ⟨b1, b2, b3⟩ := hB
  refine ⟨?_, ?_, ?_⟩
  · rw [Matrix.transpose_mul, Matrix.mul_assoc, ← Matrix.mul_assoc B, b1, Matrix.one_mul, a1]
  · rw [Matrix.transpose_mul, Matrix.mul_assoc, ← Matrix.mul_assoc Aᵀ, a2, Matrix.one_mul, b2]
  · rw [Matrix.det_mul, a3, b3, one_mul]

theorem IsRotation.transpose {A : Mat3} (hA : IsRotation A) : IsRotation Aᵀ :=
  ⟨by rw [Matrix.transpose_transpose]; exact hA.2.1, by rw [Matrix.transpose_transpose]; exact hA.1, by rw [Matrix.det_transpose]; exact hA.2.2⟩

theorem IsRotation.cancel {A : Mat3} (hA : IsRotation A) (v : Vec3) : Aᵀ *ᵥ (A *ᵥ v) = v := by
  rw [Matrix.mulVec_mulVec, hA.2.1, Matrix.one_mulVec]

theorem IsRotation.cancel' {A : Mat3} (hA : IsRotation A) (v : Vec3) : A *ᵥ (Aᵀ *ᵥ v) = v := by
  rw [Matrix.mulVec_mulVec, hA.1, Matrix.one_mulVec]

/-! ## Angle and axis -/

theorem angleAxisMatrix_unit (t : ℝ) (u : Vec3) (hu : len2 u = 1) : angleAxisMatrix t u = rod (Real.sin t) (1 - Real.cos t) u := by
  have h : u 0 * u 0 + u 1 * u 1 + u 2 * u 2 = 1 := hu
  ext i j
  fin_cases i <;> fin_cases j <;>
    simp [angleAxisMatrix, rod, crossM, Matrix.mul_apply, Fin.sum_univ_three, Matrix.one_apply]
  · linear_combination (1 - Real.cos t) * h
  · ring
  · ring
  · ring
  · linear_combination (1 - Real.cos t) * h
  · ring
  · ring
  · ring
  · linear_combination (1 - Real.cos t) * h

theorem angleAxis_isRotation (t : ℝ) (u : Vec3) (hu : len2 u = 1) : IsRotation (angleAxisMatrix t u) := by
  rw [angleAxisMatrix_unit t u hu]
  apply rod_isRotation
  rw [hu]
  linear_combination -(Real.sin_sq_add_cos_sq t)

theorem angleAxis_neg (t : ℝ) (u : Vec3) (hu : len2 u = 1) : angleAxisMatrix (-t) u = (angleAxisMatrix t u)ᵀ := by
  rw [angleAxisMatrix_unit _ u hu, angleAxisMatrix_unit _ u hu, rod_transpose, Real.sin_neg, Real.cos_neg]

theorem angleAxis_add (s t : ℝ) (u : Vec3) (hu : len2 u = 1) :
    angleAxisMatrix s u * angleAxisMatrix t u = angleAxisMatrix (s + t) u := by
  rw [angleAxisMatrix_unit _ u hu, angleAxisMatrix_unit _ u hu, angleAxisMatrix_unit _ u hu, rod_mul, hu, Real.sin_add, Real.cos_add]
  congr 1 <;> ring

theorem angleAxis_zero (u : Vec3) : angleAxisMatrix 0 u = 1 := by
  ext i j
  fin_cases i <;> fin_cases j <;> simp [angleAxisMatrix, Matrix.one_apply]

theorem angleAxis_mulVec_axis (t : ℝ) (k : Fin 3) (v : Vec3) : (angleAxisMatrix t (-(Pi.single k 1)) *ᵥ v) k = v k := by
  fin_cases k <;> simp [angleAxisMatrix, Matrix.mulVec, dotProduct, Fin.sum_univ_three, Pi.single_apply]

theorem angleAxis_mulVec_single (t : ℝ) (k : Fin 3) (a : ℝ) :
    angleAxisMatrix t (-(Pi.single k 1)) *ᵥ (Pi.single k a) = Pi.single k a := by
  funext c
  fin_cases k <;> fin_cases c <;> simp [angleAxisMatrix, Matrix.mulVec, dotProduct, Fin.sum_univ_three, Pi.single_apply]

theorem angleAxis_neg_axis (t : ℝ) (u : Vec3) : angleAxisMatrix t (-u) = angleAxisMatrix (-t) u := by
  ext i j
  fin_cases i <;> fin_cases j <;> simp [angleAxisMatrix]

theorem len2_neg_single (k : Fin 3) : len2 (-(Pi.single k 1)) = 1 := by
  fin_cases k <;> simp [len2, Pi.single_apply]

theorem len2_single (k : Fin 3) : len2 (Pi.single k 1) = 1 := by
  fin_cases k <;> simp [len2, Pi.single_apply]

/-! ## Quaternions -/

theorem Quat.toMatrix_eq (q : Quat) : q.toMatrix = rod (2 * q.w) 2 ![q.x, q.y, q.z] := by
  ext i j
  fin_cases i <;> fin_cases j <;>
    simp [Quat.toMatrix, rod, crossM, Matrix.mul_apply, Fin.sum_univ_three, Matrix.one_apply] <;> ring

theorem Quat.toMatrix_isRotation (q : Quat) (h : q.normSq = 1) : IsRotation q.toMatrix := by
  rw [Quat.toMatrix_eq]
  apply rod_isRotation
  simp only [Quat.normSq] at h
  simp [len2]
  linear_combination -4 * h

theorem Quat.normalize_normSq (q : Quat) (h : 0 < q.normSq) : q.normalize.normSq = 1 := by
  have hs := Real.sqrt_pos.mpr h
  have h2 : Real.sqrt q.normSq * Real.sqrt q.normSq = q.normSq := Real.mul_self_sqrt h.le
  have e : q.normalize.normSq = q.normSq / (Real.sqrt q.normSq * Real.sqrt q.normSq) := by
    simp only [Quat.normalize]
    generalize Real.sqrt q.normSq = r at hs
    simp only [Quat.normSq]
    field_simp
  rw [e, h2, div_self h.ne']

theorem Quat.ofMatrix_pos (m : Mat3) : 0 < (Quat.ofMatrix m).normSq := by
  have key : ∀ w x y z : ℝ, (0 < w ∨ 0 < x ∨ 0 < y ∨ 0 < z) → 0 < (Quat.mk w x y z).normSq := by
    intro w x y z h
    simp only [Quat.normSq]
    have := mul_self_nonneg w
    have := mul_self_nonneg x
    have := mul_self_nonneg y
    have := mul_self_nonneg z
    rcases h with h | h | h | h <;> have := mul_pos h h <;> linarith
  simp only [Quat.ofMatrix]
  split
  · rename_i h
    apply key; left
    have := Real.sqrt_pos.mpr (show 0 < m 0 0 + m 1 1 + m 2 2 + 1 by linarith)
    linarith
  · rename_i h
    by_cases h3 : m 1 1 > m 0 0
    · simp only [if_pos h3]
      split
      · rename_i h2
        apply key; right; right; right
        have := Real.sqrt_pos.mpr (show 0 < m 2 2 - m 0 0 - m 1 1 + 1 by linarith)
        linarith
      · apply key; right; right; left
        have := Real.sqrt_pos.mpr (show 0 < m 1 1 - m 2 2 - m 0 0 + 1 by linarith)
        linarith
    · simp only [if_neg h3]
      split
      · rename_i h2
        apply key; right; right; right
        have := Real.sqrt_pos.mpr (show 0 < m 2 2 - m 0 0 - m 1 1 + 1 by linarith)
        linarith
      · apply key; right; left
        have := Real.sqrt_pos.mpr (show 0 < m 0 0 - m 1 1 - m 2 2 + 1 by linarith)
        linarith

theorem dmvUpdate_normSq (q : Quat) (cm : Vec3) (h : 0 < q.normSq) : (dmvUpdate q cm).normSq = 1 := by
  apply Quat.normalize_normSq
  have : ∀ w x y z : ℝ, (Quat.mk w x y z).normSq = w * w + x * x + y * y + z * z := fun _ _ _ _ => rfl
  rw [this]
  have e : (q.w - cm 0 * q.x - cm 1 * q.y - cm 2 * q.z) * (q.w - cm 0 * q.x - cm 1 * q.y - cm 2 * q.z) +
      (q.x + cm 0 * q.w + cm 2 * q.y - cm 1 * q.z) * (q.x + cm 0 * q.w + cm 2 * q.y - cm 1 * q.z) +
      (q.y + cm 1 * q.w + cm 0 * q.z - cm 2 * q.x) * (q.y + cm 1 * q.w + cm 0 * q.z - cm 2 * q.x) +
      (q.z + cm 2 * q.w + cm 1 * q.x - cm 0 * q.y) * (q.z + cm 2 * q.w + cm 1 * q.x - cm 0 * q.y) = q.normSq * (1 + len2 cm) := by
    simp only [Quat.normSq, len2]; ring
  rw [e]
  have := mul_self_nonneg (cm 0)
  have := mul_self_nonneg (cm 1)
  have := mul_self_nonneg (cm 2)
  apply mul_pos h
  simp only [len2]; linarith

theorem dmvRotate_isRotation (dt : ℝ) (I : Vec3) (R0 : Mat3) (L : Vec3) : IsRotation (dmvRotate dt I R0 L) :=
  Quat.toMatrix_isRotation _ (dmvUpdate_normSq _ _ (Quat.ofMatrix_pos R0))

/-! ## Split steps -/

theorem splitAxis_rotation (h : ℝ) (I : Vec3) (k : Fin 3) (x : Mat3 × Vec3) (hx : IsRotation x.1) : IsRotation (splitAxis h I k x).1 :=
  hx.mul (angleAxis_isRotation _ _ (len2_neg_single k))

/-- orientation times body momentum does not change -/
theorem splitAxis_momentum (h : ℝ) (I : Vec3) (k : Fin 3) (x : Mat3 × Vec3) : (splitAxis h I k x).1 *ᵥ (splitAxis h I k x).2 = x.1 *ᵥ x.2 := by
  simp only [splitAxis, AngleAxis.inverse, AngleAxis.toMatrix]
  rw [← Matrix.mulVec_mulVec, angleAxis_neg _ _ (len2_neg_single k), (angleAxis_isRotation _ _ (len2_neg_single k)).cancel]

/-- each of the five maps is undone by the same map from the state with the momentum turned round -/
theorem splitAxis_reverse (h : ℝ) (I : Vec3) (k : Fin 3) (x : Mat3 × Vec3) :
    splitAxis h I k ((splitAxis h I k x).1, -(splitAxis h I k x).2) = (x.1, -x.2) := by
  have hp : (splitAxis h I k x).2 k = x.2 k := angleAxis_mulVec_axis _ _ _
  have hr := angleAxis_isRotation (h * x.2 k / I k) _ (len2_neg_single k)
  simp only [splitAxis, AngleAxis.inverse, AngleAxis.toMatrix] at hp
  simp only [splitAxis, AngleAxis.inverse, AngleAxis.toMatrix, Pi.neg_apply, hp, mul_neg, neg_div, neg_neg]
  rw [angleAxis_neg _ _ (len2_neg_single k)]
  refine Prod.ext ?_ ?_
  · show x.1 * _ * _ = x.1
    rw [Matrix.mul_assoc, hr.2.1, Matrix.mul_one]
  · simp only [Matrix.mulVec_neg, hr.cancel]

theorem splitSteps_rotation (dt : ℝ) (I : Vec3) (x : Mat3 × Vec3) (hx : IsRotation x.1) : IsRotation (splitSteps dt I x).1 := by
  simp only [splitSteps]
  iterate 5 apply splitAxis_rotation
  exact hx

theorem splitSteps_momentum (dt : ℝ) (I : Vec3) (x : Mat3 × Vec3) : (splitSteps dt I x).1 *ᵥ (splitSteps dt I x).2 = x.1 *ᵥ x.2 := by
  simp only [splitSteps, splitAxis_momentum]

theorem splitSteps_reverse (dt : ℝ) (I : Vec3) (x : Mat3 × Vec3) :
    splitSteps dt I ((splitSteps dt I x).1, -(splitSteps dt I x).2) = (x.1, -x.2) := by
  simp only [splitSteps, splitAxis_reverse]

theorem splitRotate_isRotation (dt : ℝ) (I : Vec3) (R0 : Mat3) (L : Vec3) (h : IsRotation R0) : IsRotation (splitRotate dt I R0 L) :=
  splitSteps_rotation dt I _ h

theorem splitSteps_body (dt : ℝ) (I : Vec3) (R0 : Mat3) (L : Vec3) (h : IsRotation R0) :
    (splitSteps dt I (R0, R0ᵀ *ᵥ L)).2 = (splitRotate dt I R0 L)ᵀ *ᵥ L := by
  have h1 := splitSteps_momentum dt I (R0, R0ᵀ *ᵥ L)
  simp only at h1
  rw [h.cancel'] at h1
  have h2 := splitRotate_isRotation dt I R0 L h
  have h3 := h2.cancel (splitSteps dt I (R0, R0ᵀ *ᵥ L)).2
  rw [show splitRotate dt I R0 L = (splitSteps dt I (R0, R0ᵀ *ᵥ L)).1 from rfl] at h3 ⊢
  rw [h1] at h3
  exact h3.symm

theorem splitRotate_reverse (dt : ℝ) (I : Vec3) (R0 : Mat3) (L : Vec3) (h : IsRotation R0) :
    splitRotate dt I (splitRotate dt I R0 L) (-L) = R0 := by
  have h1 := splitSteps_reverse dt I (R0, R0ᵀ *ᵥ L)
  rw [splitSteps_body dt I R0 L h] at h1
  have h2 := congrArg Prod.fst h1
  simp only at h2
  conv_lhs => unfold splitRotate
  rw [Matrix.mulVec_neg]
  exact h2

/-! ## Inertia tensors -/

theorem inertia_inv (R : Mat3) (hR : IsRotation R) (I : Vec3) (hI : ∀ k, I k ≠ 0) :
    R * diagonal I * Rᵀ * (R * diagonal (fun k => 1 / I k) * Rᵀ) = 1 := by
  have h : diagonal I * diagonal (fun k => 1 / I k) = (1 : Mat3) := by
    rw [Matrix.diagonal_mul_diagonal, ← Matrix.diagonal_one]
    congr 1; funext k; simp [hI k]
  calc R * diagonal I * Rᵀ * (R * diagonal (fun k => 1 / I k) * Rᵀ)
      = R * diagonal I * (Rᵀ * R) * diagonal (fun k => 1 / I k) * Rᵀ := by noncomm_ring
    _ = R * (diagonal I * diagonal (fun k => 1 / I k)) * Rᵀ := by rw [hR.2.1]; noncomm_ring
    _ = 1 := by rw [h, Matrix.mul_one, hR.1]

theorem inertia_inv' (R : Mat3) (hR : IsRotation R) (I : Vec3) (hI : ∀ k, I k ≠ 0) :
    R * diagonal (fun k => 1 / I k) * Rᵀ * (R * diagonal I * Rᵀ) = 1 := by
  have h : diagonal (fun k => 1 / I k) * diagonal I = (1 : Mat3) := by
    rw [Matrix.diagonal_mul_diagonal, ← Matrix.diagonal_one]
    congr 1; funext k; simp [hI k]
  calc R * diagonal (fun k => 1 / I k) * Rᵀ * (R * diagonal I * Rᵀ)
      = R * diagonal (fun k => 1 / I k) * (Rᵀ * R) * diagonal I * Rᵀ := by noncomm_ring
    _ = R * (diagonal (fun k => 1 / I k) * diagonal I) * Rᵀ := by rw [hR.2.1]; noncomm_ring
    _ = 1 := by rw [h, Matrix.mul_one, hR.1]

/-! ## Exponential Euler -/

theorem eulerOrientation_eq (dt : ℝ) (w : Vec3) (R : Mat3) : eulerOrientation dt w R = rod dt 0 w * R := by
  ext i j
  fin_cases i <;> simp [eulerOrientation, rod, crossM, cross_apply, Matrix.mul_apply, Fin.sum_univ_three, Matrix.one_apply, add_mul] <;> ring

theorem eulerOrientation_det (dt : ℝ) (w : Vec3) (R : Mat3) (hR : IsRotation R) : 0 < (eulerOrientation dt w R).det := by
  rw [eulerOrientation_eq, Matrix.det_mul, hR.2.2, rod_det]
  have := mul_self_nonneg (w 0)
  have := mul_self_nonneg (w 1)
  have := mul_self_nonneg (w 2)
  have h : 0 ≤ len2 w := by simp only [len2]; linarith
  have := mul_nonneg (sq_nonneg dt) h
  linarith

theorem project_isRotation (R : Mat3) (hdet : 0 < R.det) (d : Mat3 × Vec3 × Mat3) (hd : IsSVD R d) : IsRotation (d.1 * d.2.2ᵀ) := by
  obtain ⟨hU, hV, hs, hR⟩ := hd
  have hU' : d.1ᵀ * d.1 = 1 := mul_eq_one_comm.mp hU
  have hV' : d.2.2ᵀ * d.2.2 = 1 := mul_eq_one_comm.mp hV
  refine ⟨?_, ?_, ?_⟩
  · rw [Matrix.transpose_mul, Matrix.transpose_transpose, Matrix.mul_assoc, ← Matrix.mul_assoc d.2.2ᵀ, hV', Matrix.one_mul, hU]
  · rw [Matrix.transpose_mul, Matrix.transpose_transpose, Matrix.mul_assoc, ← Matrix.mul_assoc d.1ᵀ, hU', Matrix.one_mul, hV]
  · have hu2 : d.1.det * d.1.det = 1 := by have := congrArg Matrix.det hU; simpa using this
    have hv2 : d.2.2.det * d.2.2.det = 1 := by have := congrArg Matrix.det hV; simpa using this
    have hr : R.det = d.1.det * d.2.2.det * ∏ k, d.2.1 k := by
      have := congrArg Matrix.det hR
      rw [this, Matrix.det_mul, Matrix.det_mul, Matrix.det_diagonal, Matrix.det_transpose]; ring
    rw [Matrix.det_mul, Matrix.det_transpose]
    have hp : 0 ≤ ∏ k, d.2.1 k := Finset.prod_nonneg fun k _ => hs k
    have hx : (d.1.det * d.2.2.det) ^ 2 = 1 := by linear_combination (d.2.2.det * d.2.2.det) * hu2 + hv2
    rcases sq_eq_one_iff_of_ne_zero hx with h | h
    · exact h
    · rw [hr, h] at hdet; linarith
where
  sq_eq_one_iff_of_ne_zero {a : ℝ} (h : a ^ 2 = 1) : a = 1 ∨ a = -1 := by
    have : (a - 1) * (a + 1) = 0 := by linear_combination h
    rcases mul_eq_zero.mp this with h | h
    · left; linarith
    · right; linarith

theorem updateOrientation_isRotation (dt : ℝ) (w : Vec3) (Q : Mat3) (hQ : IsRotation Q) : IsRotation (updateOrientation dt w Q) := by
  simp only [updateOrientation, AngleAxis.toMatrix]
  set th := Real.sqrt (w 0 * w 0 + w 1 * w 1 + w 2 * w 2) with hth
  by_cases h : th = 0
  · simp only [h, ne_eq, not_true_eq_false, if_false, zero_mul, angleAxis_zero, Matrix.one_mul]
    exact hQ
  · rw [if_pos h]
    refine IsRotation.mul (angleAxis_isRotation _ _ ?_) hQ
    have h2 : th * th = w 0 * w 0 + w 1 * w 1 + w 2 * w 2 := by
      refine Real.mul_self_sqrt ?_
      have := mul_self_nonneg (w 0)
      have := mul_self_nonneg (w 1)
      have := mul_self_nonneg (w 2)
      linarith
    simp only [len2]
    field_simp
    rw [pow_two th, h2]
    ring

/-! ## The quaternion of a rotation -/

/-- entries of `Rᵀ` are the cofactors -/
theorem IsRotation.adj {R : Mat3} (h : IsRotation R) : R.adjugate = Rᵀ := by
  have h1 : R * R.adjugate = 1 := by rw [Matrix.mul_adjugate, h.2.2, one_smul]
  calc R.adjugate = Rᵀ * R * R.adjugate := by rw [h.2.1, Matrix.one_mul]
    _ = Rᵀ := by rw [Matrix.mul_assoc, h1, Matrix.mul_one]

/-- the first branch of the conversion -/
noncomputable def quatW (m : Mat3) : Quat :=
  let t := Real.sqrt (m 0 0 + m 1 1 + m 2 2 + 1)
  let s := 1 / 2 / t
  ⟨1 / 2 * t, (m 2 1 - m 1 2) * s, (m 0 2 - m 2 0) * s, (m 1 0 - m 0 1) * s⟩

theorem quatW_toMatrix (R : Mat3) (h : IsRotation R) (ht : 0 < R 0 0 + R 1 1 + R 2 2 + 1) : (quatW R).toMatrix = R ∧ (quatW R).normSq = 1 := by
  have rows := h.1
  have cols := h.2.1
  have adj := h.adj
  have s2 := Real.mul_self_sqrt ht.le
  have s0 := (Real.sqrt_pos.mpr ht).ne'
  have r : ∀ i j, R i 0 * R j 0 + R i 1 * R j 1 + R i 2 * R j 2 = if i = j then 1 else 0 := by
    intro i j
    have := congrFun (congrFun rows i) j
    simpa [Matrix.mul_apply, Fin.sum_univ_three, Matrix.one_apply] using this
  have c : ∀ i j, R 0 i * R 0 j + R 1 i * R 1 j + R 2 i * R 2 j = if i = j then 1 else 0 := by
    intro i j
    have := congrFun (congrFun cols i) j
    simpa [Matrix.mul_apply, Fin.sum_univ_three, Matrix.one_apply] using this
  have a : ∀ i j, R.adjugate i j = R j i := fun i j => by rw [adj, Matrix.transpose_apply]
  simp only [Matrix.adjugate_fin_three] at a
  have a00 := a 0 0
  have a01 := a 0 1
  have a02 := a 0 2
  have a10 := a 1 0
  have a11 := a 1 1
  have a12 := a 1 2
  have a20 := a 2 0
  have a21 := a 2 1
  have a22 := a 2 2
  have r00 := r 0 0
  have r11 := r 1 1
  have r22 := r 2 2
  have r01 := r 0 1
  have r02 := r 0 2
  have r12 := r 1 2
  have c00 := c 0 0
  have c11 := c 1 1
  have c22 := c 2 2
  have c01 := c 0 1
  have c02 := c 0 2
  have c12 := c 1 2
  simp at a00 a01 a02 a10 a11 a12 a20 a21 a22 r00 r11 r22 r01 r02 r12 c00 c11 c22 c01 c02 c12
  have E00 : (R 0 2 - R 2 0) ^ 2 + (R 1 0 - R 0 1) ^ 2 = 2 * (R 0 0 + R 1 1 + R 2 2 + 1) * (1 - R 0 0) := by
    linear_combination r00 + c00 + 2 * a11 + 2 * a22
  have E11 : (R 2 1 - R 1 2) ^ 2 + (R 1 0 - R 0 1) ^ 2 = 2 * (R 0 0 + R 1 1 + R 2 2 + 1) * (1 - R 1 1) := by
    linear_combination r11 + c11 + 2 * a00 + 2 * a22
  have E22 : (R 2 1 - R 1 2) ^ 2 + (R 0 2 - R 2 0) ^ 2 = 2 * (R 0 0 + R 1 1 + R 2 2 + 1) * (1 - R 2 2) := by
    linear_combination r22 + c22 + 2 * a00 + 2 * a11
  have E01 : (R 0 2 - R 2 0) * (R 2 1 - R 1 2) = (R 0 0 + R 1 1 + R 2 2 + 1) * (R 0 1 + R 1 0) := by
    linear_combination a01 + a10 - r01 - c01
  have E02 : (R 1 0 - R 0 1) * (R 2 1 - R 1 2) = (R 0 0 + R 1 1 + R 2 2 + 1) * (R 0 2 + R 2 0) := by
    linear_combination a20 + a02 - r02 - c02
  have E12 : (R 1 0 - R 0 1) * (R 0 2 - R 2 0) = (R 0 0 + R 1 1 + R 2 2 + 1) * (R 1 2 + R 2 1) := by
    linear_combination a12 + a21 - r12 - c12
  unfold quatW Quat.toMatrix Quat.normSq
  clear a r c a00 a01 a02 a10 a11 a12 a20 a21 a22 r00 r01 r02 r11 r12 r22 c00 c01 c02 c11 c12 c22
  generalize Real.sqrt (R 0 0 + R 1 1 + R 2 2 + 1) = s at *
  constructor
  · ext i j
    fin_cases i <;> fin_cases j <;> simp <;> field_simp
    · linear_combination 2 * (1 - R 0 0) * s2 - E00
    · linear_combination -(R 1 0 + R 0 1) * s2 + E01
    · linear_combination -(R 0 2 + R 2 0) * s2 + E02
    · linear_combination -(R 1 0 + R 0 1) * s2 + E01
    · linear_combination 2 * (1 - R 1 1) * s2 - E11
    · linear_combination -(R 2 1 + R 1 2) * s2 + E12
    · linear_combination -(R 0 2 + R 2 0) * s2 + E02
    · linear_combination -(R 2 1 + R 1 2) * s2 + E12
    · linear_combination 2 * (1 - R 2 2) * s2 - E22
  · field_simp
    linear_combination (s * s + R 0 0 + R 1 1 + R 2 2 + 1 - 4) * s2 + 1 / 2 * E00 + 1 / 2 * E11 + 1 / 2 * E22

/-- turning half a revolution about a principal axis first -/
theorem flip_isRotation (R : Mat3) (h : IsRotation R) (d : Vec3) (hd : d = ![1, -1, -1] ∨ d = ![-1, 1, -1] ∨ d = ![-1, -1, 1]) :
    IsRotation (R * diagonal d) := by
  refine h.mul ⟨?_, ?_, ?_⟩
  · rw [diagonal_transpose, diagonal_mul_diagonal, ← diagonal_one]
    congr 1; funext k
    rcases hd with rfl | rfl | rfl <;> fin_cases k <;> simp
  · rw [diagonal_transpose, diagonal_mul_diagonal, ← diagonal_one]
    congr 1; funext k
    rcases hd with rfl | rfl | rfl <;> fin_cases k <;> simp
  · rw [det_diagonal, Fin.prod_univ_three]
    rcases hd with rfl | rfl | rfl <;> simp

theorem Quat.toMatrix_flip (w x y z : ℝ) (h : (Quat.mk w x y z).normSq = 1) :
    (Quat.mk (-x) w z (-y)).toMatrix = (Quat.mk w x y z).toMatrix * diagonal ![1, -1, -1] ∧
    (Quat.mk (-y) (-z) w x).toMatrix = (Quat.mk w x y z).toMatrix * diagonal ![-1, 1, -1] ∧
    (Quat.mk (-z) y (-x) w).toMatrix = (Quat.mk w x y z).toMatrix * diagonal ![-1, -1, 1] := by
  simp only [Quat.normSq] at h
  refine ⟨?_, ?_, ?_⟩ <;> ext i j <;> fin_cases i <;> fin_cases j <;> simp [Quat.toMatrix, mul_diagonal] <;>
    first | ring1 | linear_combination 2 * h | linear_combination -2 * h

/-- The quaternion of a rotation has unit length and gives the rotation back. -/
theorem Quat.ofMatrix_toMatrix (R : Mat3) (h : IsRotation R) : (Quat.ofMatrix R).toMatrix = R ∧ (Quat.ofMatrix R).normSq = 1 := by
  have back : ∀ d : Vec3, (d = ![1, -1, -1] ∨ d = ![-1, 1, -1] ∨ d = ![-1, -1, 1]) → R * diagonal d * diagonal d = R := by
    intro d hd
    rw [Matrix.mul_assoc, diagonal_mul_diagonal]
    have : (fun i => d i * d i) = 1 := by
      funext k; rcases hd with rfl | rfl | rfl <;> fin_cases k <;> simp
    rw [this]; simp
  have b0 : 0 < R 0 0 - R 1 1 - R 2 2 + 1 → ∀ q : Quat, q = ⟨(R 2 1 - R 1 2) * (1 / 2 / Real.sqrt (R 0 0 - R 1 1 - R 2 2 + 1)),
      1 / 2 * Real.sqrt (R 0 0 - R 1 1 - R 2 2 + 1), (R 1 0 + R 0 1) * (1 / 2 / Real.sqrt (R 0 0 - R 1 1 - R 2 2 + 1)),
      (R 2 0 + R 0 2) * (1 / 2 / Real.sqrt (R 0 0 - R 1 1 - R 2 2 + 1))⟩ → q.toMatrix = R ∧ q.normSq = 1 := by
    intro ht q hq
    have h1 := quatW_toMatrix _ (flip_isRotation R h ![1, -1, -1] (Or.inl rfl)) (by simp [mul_diagonal]; linarith)
    have e : quatW (R * diagonal ![1, -1, -1]) = ⟨q.x, -q.w, -q.z, q.y⟩ := by
      rw [hq]; simp [quatW, mul_diagonal]
      have : R 0 0 + -R 1 1 + -R 2 2 + 1 = R 0 0 - R 1 1 - R 2 2 + 1 := by ring
      rw [this]
      refine ⟨rfl, ?_, ?_, ?_⟩ <;> first | ring1 | (left; ring1)
    rw [e] at h1
    have h2 := (Quat.toMatrix_flip _ _ _ _ h1.2).1
    rw [h1.1, back _ (Or.inl rfl)] at h2
    simp only [neg_neg] at h2
    refine ⟨h2, ?_⟩
    have := h1.2; simp only [Quat.normSq] at this ⊢; linear_combination this
  have b1 : 0 < R 1 1 - R 2 2 - R 0 0 + 1 → ∀ q : Quat, q = ⟨(R 0 2 - R 2 0) * (1 / 2 / Real.sqrt (R 1 1 - R 2 2 - R 0 0 + 1)),
      (R 0 1 + R 1 0) * (1 / 2 / Real.sqrt (R 1 1 - R 2 2 - R 0 0 + 1)), 1 / 2 * Real.sqrt (R 1 1 - R 2 2 - R 0 0 + 1),
      (R 2 1 + R 1 2) * (1 / 2 / Real.sqrt (R 1 1 - R 2 2 - R 0 0 + 1))⟩ → q.toMatrix = R ∧ q.normSq = 1 := by
    intro ht q hq
    have h1 := quatW_toMatrix _ (flip_isRotation R h ![-1, 1, -1] (Or.inr (Or.inl rfl))) (by simp [mul_diagonal]; linarith)
    have e : quatW (R * diagonal ![-1, 1, -1]) = ⟨q.y, q.z, -q.w, -q.x⟩ := by
      rw [hq]; simp [quatW, mul_diagonal]
      have : -R 0 0 + R 1 1 + -R 2 2 + 1 = R 1 1 - R 2 2 - R 0 0 + 1 := by ring
      rw [this]
      refine ⟨rfl, ?_, ?_, ?_⟩ <;> first | ring1 | (left; ring1)
    rw [e] at h1
    have h2 := (Quat.toMatrix_flip _ _ _ _ h1.2).2.1
    rw [h1.1, back _ (Or.inr (Or.inl rfl))] at h2
    simp only [neg_neg] at h2
    refine ⟨h2, ?_⟩
    · have := h1.2; simp only [Quat.normSq] at this ⊢; linear_combination this
  have b2 : 0 < R 2 2 - R 0 0 - R 1 1 + 1 → ∀ q : Quat, q = ⟨(R 1 0 - R 0 1) * (1 / 2 / Real.sqrt (R 2 2 - R 0 0 - R 1 1 + 1)),
      (R 0 2 + R 2 0) * (1 / 2 / Real.sqrt (R 2 2 - R 0 0 - R 1 1 + 1)), (R 1 2 + R 2 1) * (1 / 2 / Real.sqrt (R 2 2 - R 0 0 - R 1 1 + 1)),
      1 / 2 * Real.sqrt (R 2 2 - R 0 0 - R 1 1 + 1)⟩ → q.toMatrix = R ∧ q.normSq = 1 := by
    intro ht q hq
    have h1 := quatW_toMatrix _ (flip_isRotation R h ![-1, -1, 1] (Or.inr (Or.inr rfl))) (by simp [mul_diagonal]; linarith)
    have e : quatW (R * diagonal ![-1, -1, 1]) = ⟨q.z, -q.y, q.x, -q.w⟩ := by
      rw [hq]; simp [quatW, mul_diagonal]
      have : -R 0 0 + -R 1 1 + R 2 2 + 1 = R 2 2 - R 0 0 - R 1 1 + 1 := by ring
      rw [this]
      refine ⟨rfl, ?_, ?_, ?_⟩ <;> first | ring1 | (left; ring1)
    rw [e] at h1
    have h2 := (Quat.toMatrix_flip _ _ _ _ h1.2).2.2
    rw [h1.1, back _ (Or.inr (Or.inr rfl))] at h2
    simp only [neg_neg] at h2
    refine ⟨h2, ?_⟩
    have := h1.2; simp only [Quat.normSq] at this ⊢; linear_combination this
  simp only [Quat.ofMatrix]
  by_cases ht : R 0 0 + R 1 1 + R 2 2 > 0
  · rw [if_pos ht]
    exact quatW_toMatrix R h (by linarith)
  · rw [if_neg ht]
    by_cases h3 : R 1 1 > R 0 0
    · simp only [if_pos h3]
      split
      · exact b2 (by linarith) _ rfl
      · exact b1 (by linarith) _ rfl
    · simp only [if_neg h3]
      split
      · exact b2 (by linarith) _ rfl
      · exact b0 (by linarith) _ rfl

/-! ## The update of the quaternion -/

/-- homogeneous form of the matrix of a quaternion -/
def Quat.hom (q : Quat) : Mat3 :=
  !![q.w * q.w + q.x * q.x - q.y * q.y - q.z * q.z, 2 * (q.x * q.y - q.z * q.w), 2 * (q.x * q.z + q.y * q.w);
     2 * (q.x * q.y + q.z * q.w), q.w * q.w - q.x * q.x + q.y * q.y - q.z * q.z, 2 * (q.y * q.z - q.x * q.w);
     2 * (q.x * q.z - q.y * q.w), 2 * (q.y * q.z + q.x * q.w), q.w * q.w - q.x * q.x - q.y * q.y + q.z * q.z]

theorem Quat.toMatrix_hom (q : Quat) (h : q.normSq = 1) : q.toMatrix = q.hom := by
  simp only [Quat.normSq] at h
  ext i j
  fin_cases i <;> fin_cases j <;> simp [Quat.toMatrix, Quat.hom] <;> first | ring1 | linear_combination -h

theorem Quat.normalize_hom (q : Quat) (h : 0 < q.normSq) : q.normalize.hom = (1 / q.normSq) • q.hom := by
  have hs := Real.sqrt_pos.mpr h
  have h2 : Real.sqrt q.normSq * Real.sqrt q.normSq = q.normSq := Real.mul_self_sqrt h.le
  simp only [Quat.normalize]
  generalize Real.sqrt q.normSq = r at *
  rw [← h2]
  ext i j
  fin_cases i <;> fin_cases j <;> simp [Quat.hom] <;> field_simp

/-- the matrix by which `cm` turns the body -/
noncomputable def cayley (c : Vec3) : Mat3 := rod (2 / (1 + len2 c)) (2 / (1 + len2 c)) c

theorem dmvUpdate_toMatrix (q : Quat) (h : q.normSq = 1) (c : Vec3) : (dmvUpdate q c).toMatrix = q.toMatrix * cayley c := by
  have hc : 0 < 1 + len2 c := by
    have := mul_self_nonneg (c 0)
    have := mul_self_nonneg (c 1)
    have := mul_self_nonneg (c 2)
    simp only [len2]; linarith
  rw [Quat.toMatrix_hom _ (dmvUpdate_normSq q c (by rw [h]; exact one_pos)), Quat.toMatrix_hom q h]
  unfold dmvUpdate
  have e : (Quat.mk (q.w - c 0 * q.x - c 1 * q.y - c 2 * q.z) (q.x + c 0 * q.w + c 2 * q.y - c 1 * q.z)
      (q.y + c 1 * q.w + c 0 * q.z - c 2 * q.x) (q.z + c 2 * q.w + c 1 * q.x - c 0 * q.y)).normSq = q.normSq * (1 + len2 c) := by
    simp only [Quat.normSq, len2]; ring
  rw [Quat.normalize_hom _ (by rw [e, h, one_mul]; exact hc), e, h, one_mul]
  have hcay : cayley c = (1 / (1 + len2 c)) • (Quat.mk 1 (c 0) (c 1) (c 2)).hom := by
    ext i j
    fin_cases i <;> fin_cases j <;>
      simp [cayley, rod, crossM, Quat.hom, Matrix.mul_apply, Fin.sum_univ_three, Matrix.one_apply] <;> field_simp <;>
      (try simp only [len2]) <;> ring
  rw [hcay, Matrix.mul_smul]
  congr 1
  ext i j
  fin_cases i <;> fin_cases j <;> simp [Quat.hom, Matrix.mul_apply, Fin.sum_univ_three] <;> ring

theorem cayley_isRotation (c : Vec3) : IsRotation (cayley c) := by
  have hc : 0 < 1 + len2 c := by
    have := mul_self_nonneg (c 0)
    have := mul_self_nonneg (c 1)
    have := mul_self_nonneg (c 2)
    simp only [len2]; linarith
  apply rod_isRotation
  field_simp

end Scisim
