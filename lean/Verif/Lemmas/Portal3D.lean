import Verif.Spec.Portal3D
import Verif.Lemmas.Maps
import Mathlib.LinearAlgebra.Matrix.NonsingularInverse
import Mathlib.Tactic.NormNum
import Mathlib.Tactic.FinCases
import Mathlib.Tactic.Linarith
/-!
# Frames and portals in space: helper lemmas
-/

namespace Scisim

open Matrix

variable {axis : Vec3 → Vec3 → Vec3}

/-! ## Helper lemmas -/

theorem dot_inner (a b : Vec3) : a ⬝ᵥ b = inner3 a b := by simp [dotProduct, Fin.sum_univ_three, inner3]

theorem fin3_cases {P : Fin 3 → Prop} (h0 : P 0) (h1 : P 1) (h2 : P 2) : ∀ i, P i := by
  intro i
  fin_cases i
  · exact h0
  · exact h1
  · exact h2

theorem orthonormal3_expand {a b c : Vec3} (h : Orthonormal3 a b c) (i j : Fin 3) :
    a i * a j + b i * b j + c i * c j = if i = j then 1 else 0 := by
  obtain ⟨haa, hbb, hcc, hab, hbc, hca⟩ := h
  simp only [inner3] at *
  have hM : (!![a 0, a 1, a 2; b 0, b 1, b 2; c 0, c 1, c 2] : Mat3) * (!![a 0, b 0, c 0; a 1, b 1, c 1; a 2, b 2, c 2] : Mat3) = 1 := by
    ext i j
    fin_cases i <;> fin_cases j <;> simp [Matrix.mul_apply, Fin.sum_univ_three] <;> linarith
  have hM' := mul_eq_one_comm.mp hM
  have hij := congrFun (congrFun hM' i) j
  rw [Matrix.one_apply] at hij
  rw [← hij]
  fin_cases i <;> fin_cases j <;> simp [Matrix.mul_apply, Fin.sum_univ_three]

/-- the coordinates of a teleported point -/
theorem through_coords {m : Fin 3 → ℤ} {a b : Plane3} (hb : Orthonormal3 b.n (b.t0 axis) (b.t1 axis)) (x : Vec3) :
    inner3 b.n (Portal3.through axis m a b x - b.x) = m 0 * inner3 a.n (a.x - x) ∧
    inner3 (b.t0 axis) (Portal3.through axis m a b x - b.x) = m 1 * inner3 (a.t0 axis) (a.x - x) ∧
    inner3 (b.t1 axis) (Portal3.through axis m a b x - b.x) = m 2 * inner3 (a.t1 axis) (a.x - x) := by
  obtain ⟨hnn, h00, h11, hn0, h01, h1n⟩ := hb
  unfold Portal3.through
  simp only [dot_inner]
  simp only [inner3, Pi.add_apply, Pi.sub_apply, Pi.smul_apply, smul_eq_mul] at *
  generalize b.t0 axis = B0 at *
  generalize b.t1 axis = B1 at *
  generalize (m 0 : ℝ) * (a.n 0 * (a.x 0 - x 0) + a.n 1 * (a.x 1 - x 1) + a.n 2 * (a.x 2 - x 2)) = u
  generalize (m 1 : ℝ) * (a.t0 axis 0 * (a.x 0 - x 0) + a.t0 axis 1 * (a.x 1 - x 1) + a.t0 axis 2 * (a.x 2 - x 2)) = v
  generalize (m 2 : ℝ) * (a.t1 axis 0 * (a.x 0 - x 0) + a.t1 axis 1 * (a.x 1 - x 1) + a.t1 axis 2 * (a.x 2 - x 2)) = w
  refine ⟨?_, ?_, ?_⟩
  · linear_combination u * hnn + v * hn0 + w * h1n
  · linear_combination u * hn0 + v * h00 + w * h01
  · linear_combination u * h1n + v * h01 + w * h11

theorem orthonormal3_ext {a b c x y : Vec3} (h : Orthonormal3 a b c) (ha : inner3 a x = inner3 a y) (hb : inner3 b x = inner3 b y)
    (hc : inner3 c x = inner3 c y) : x = y := by
  have e := orthonormal3_expand h
  have key : ∀ i, x i = y i := by
    simp only [inner3] at ha hb hc
    intro i
    have e0 := e i 0
    have e1 := e i 1
    have e2 := e i 2
    have hx : x i = (if i = 0 then 1 else 0) * x 0 + (if i = 1 then 1 else 0) * x 1 + (if i = 2 then 1 else 0) * x 2 := by
      revert i; exact fun i => by fin_cases i <;> simp
    have hy : y i = (if i = 0 then 1 else 0) * y 0 + (if i = 1 then 1 else 0) * y 1 + (if i = 2 then 1 else 0) * y 2 := by
      revert i; exact fun i => by fin_cases i <;> simp
    rw [hx, hy, ← e0, ← e1, ← e2]
    linear_combination a i * ha + b i * hb + c i * hc
  exact funext key

theorem orthonormal3_normSq {a b c : Vec3} (h : Orthonormal3 a b c) (x : Vec3) : inner3 x x = inner3 a x ^ 2 + inner3 b x ^ 2 + inner3 c x ^ 2 := by
  have e := orthonormal3_expand h
  have e00 := e 0 0
  have e11 := e 1 1
  have e22 := e 2 2
  have e01 := e 0 1
  have e02 := e 0 2
  have e12 := e 1 2
  simp at e00 e11 e22 e01 e02 e12
  simp only [inner3]
  linear_combination -(x 0 ^ 2) * e00 - x 1 ^ 2 * e11 - x 2 ^ 2 * e22 - 2 * x 0 * x 1 * e01 - 2 * x 0 * x 2 * e02 - 2 * x 1 * x 2 * e12

theorem through_inverse {m : Fin 3 → ℤ} {a b : Plane3} (ha : Orthonormal3 a.n (a.t0 axis) (a.t1 axis)) (hb : Orthonormal3 b.n (b.t0 axis) (b.t1 axis))
    (hm : ∀ i, m i = 1 ∨ m i = -1) (x : Vec3) : Portal3.through axis m b a (Portal3.through axis m a b x) = x := by
  obtain ⟨h1, h2, h3⟩ := through_coords (m := m) (a := a) hb x
  obtain ⟨k1, k2, k3⟩ := through_coords (m := m) (a := b) ha (Portal3.through axis m a b x)
  set y := Portal3.through axis m a b x
  have hsq : ∀ i, (m i : ℝ) * m i = 1 := by
    intro i
    rcases hm i with h | h <;> rw [h] <;> norm_num
  have hneg : ∀ u : Vec3, inner3 u (b.x - y) = -inner3 u (y - b.x) := by
    intro u
    simp only [inner3, Pi.sub_apply]; ring
  rw [hneg, h1] at k1
  rw [hneg, h2] at k2
  rw [hneg, h3] at k3
  have hsub : ∀ u z : Vec3, inner3 u z = inner3 u (z - a.x) + inner3 u a.x := by
    intro u z
    simp only [inner3, Pi.sub_apply]; ring
  have hneg' : ∀ u : Vec3, inner3 u (a.x - x) = -inner3 u (x - a.x) := by
    intro u
    simp only [inner3, Pi.sub_apply]; ring
  refine orthonormal3_ext ha ?_ ?_ ?_
  · rw [hsub _ x, hsub a.n, k1]
    rw [hneg'] ; linear_combination inner3 a.n (x - a.x) * hsq 0
  · rw [hsub _ x, hsub (a.t0 axis), k2, hneg']
    linear_combination inner3 (a.t0 axis) (x - a.x) * hsq 1
  · rw [hsub _ x, hsub (a.t1 axis), k3, hneg']
    linear_combination inner3 (a.t1 axis) (x - a.x) * hsq 2

theorem distSq3_inner (a b : Vec3) : distSq3 a b = inner3 (a - b) (a - b) := by
  simp only [distSq3, inner3, Pi.sub_apply]; ring

theorem through_isometric {m : Fin 3 → ℤ} {a b : Plane3} (ha : Orthonormal3 a.n (a.t0 axis) (a.t1 axis)) (hb : Orthonormal3 b.n (b.t0 axis) (b.t1 axis))
    (hm : ∀ i, m i = 1 ∨ m i = -1) : Isometric3 (Portal3.through axis m a b) := by
  intro x y
  have hsq : ∀ i, (m i : ℝ) * m i = 1 := by
    intro i
    rcases hm i with h | h <;> rw [h] <;> norm_num
  rw [distSq3_inner, distSq3_inner, orthonormal3_normSq hb, orthonormal3_normSq ha]
  have hlin : ∀ u p q z : Vec3, inner3 u (p - q) = inner3 u (p - z) - inner3 u (q - z) := by
    intro u p q z
    simp only [inner3, Pi.sub_apply]; ring
  have hlin' : ∀ u p q z : Vec3, inner3 u (p - q) = inner3 u (z - q) - inner3 u (z - p) := by
    intro u p q z
    simp only [inner3, Pi.sub_apply]; ring
  obtain ⟨h1, h2, h3⟩ := through_coords (m := m) (a := a) hb x
  obtain ⟨k1, k2, k3⟩ := through_coords (m := m) (a := a) hb y
  rw [hlin b.n _ _ b.x, hlin (b.t0 axis) _ _ b.x, hlin (b.t1 axis) _ _ b.x, h1, h2, h3, k1, k2, k3, hlin' a.n x y a.x, hlin' (a.t0 axis) x y a.x,
    hlin' (a.t1 axis) x y a.x]
  linear_combination (inner3 a.n (a.x - x) - inner3 a.n (a.x - y)) ^ 2 * hsq 0 +
    (inner3 (a.t0 axis) (a.x - x) - inner3 (a.t0 axis) (a.x - y)) ^ 2 * hsq 1 + (inner3 (a.t1 axis) (a.x - x) - inner3 (a.t1 axis) (a.x - y)) ^ 2 * hsq 2

theorem inner_sub (u p q : Vec3) : inner3 u (p - q) = inner3 u p - inner3 u q := by
  simp only [inner3, Pi.sub_apply]; ring

theorem distance_height (p : Plane3) (x : Vec3) : p.distanceToPoint x = p.height x := by
  unfold Plane3.distanceToPoint Plane3.height
  rw [dot_inner, inner_sub]

theorem t_of_rotation (x u : Vec3) (hu : dot3 u u = 1) (hc : -1 + 1 / 1000000000000 ≤ u 1) :
    (Plane3.t0 axis ⟨x, u, 0, 0⟩ = ![1 - u 0 * u 0 / (1 + u 1), -u 0, -(u 0 * u 2) / (1 + u 1)]) ∧
    (Plane3.t1 axis ⟨x, u, 0, 0⟩ = ![-(u 0 * u 2) / (1 + u 1), -u 2, 1 - u 2 * u 2 / (1 + u 1)]) := by
  have hY : dot3 ![0, 1, 0] ![0, 1, 0] = 1 := by simp [dot3]
  have hdot : dot3 u ![0, 1, 0] = u 1 := by simp [dot3]
  have hp : 0 < 1 + u 1 := by
    have : (0 : ℝ) < 1 / 1000000000000 := by norm_num
    linarith
  unfold Plane3.t0 Plane3.t1 Quat.fromTwoVectors
  simp only [normalized3_unit hY, normalized3_unit hu, dot3_eq, hdot]
  rw [if_neg (not_lt.mpr hc)]
  have hs : Real.sqrt ((1 + u 1) * 2) * Real.sqrt ((1 + u 1) * 2) = (1 + u 1) * 2 := Real.mul_self_sqrt (by linarith)
  have hsp : 0 < Real.sqrt ((1 + u 1) * 2) := Real.sqrt_pos.mpr (by linarith)
  generalize Real.sqrt ((1 + u 1) * 2) = s at hs hsp
  have hs2 : s ^ 2 = (1 + u 1) * 2 := by rw [sq]; exact hs
  have hss : s * (1 / s) = 1 := by field_simp
  have hinv : (1 / s) * (1 / s) * (2 * (1 + u 1)) = 1 := by
    rw [mul_comm 2, ← hs]; linear_combination (s * (1 / s) + 1) * hss
  have hdiv : ∀ w : ℝ, w / (1 + u 1) = 2 * w * ((1 / s) * (1 / s)) := by
    intro w
    rw [div_eq_iff hp.ne']
    linear_combination -w * hinv
  generalize 1 / s = k at hss hinv hdiv
  simp only [hdiv]
  constructor
  · refine funext (fin3_cases ?_ ?_ ?_)
    · rw [rotate_0]; simp [cross3_0, cross3_1, cross3_2]; ring
    · rw [rotate_1]; simp [cross3_0, cross3_1, cross3_2]; linear_combination u 0 * hss
    · rw [rotate_2]; simp [cross3_0, cross3_1, cross3_2]; ring
  · refine funext (fin3_cases ?_ ?_ ?_)
    · rw [rotate_0]; simp [cross3_0, cross3_1, cross3_2]; ring
    · rw [rotate_1]; simp [cross3_0, cross3_1, cross3_2]; linear_combination u 2 * hss
    · rw [rotate_2]; simp [cross3_0, cross3_1, cross3_2]; ring

end Scisim
