import Mathlib.Tactic.FieldSimp
import Verif.Lemmas.Products
/-! # C95: products with sparse matrices -/

namespace Scisim.Products
variable {K : Type} [Field K]
open Finset

/-- With Eigen and with MKL the objective is `½ xᵀ A x + bᵀ x`, for every matrix, symmetric or not. -/
theorem C95_objective {n : ℕ} {A : Csc K} {b x : List K} (h : Fits n A b x) : objectiveEigen A b x = .ok (quadratic n A b x) ∧ objectiveMKL A b x = .ok (quadratic n A b x) := by
  have hq : ∑ i ∈ range n, x.getD i 0 * (1 / 2 * tAt n A x i + b.getD i 0) = quadratic n A b x := by
    simp only [mul_add, sum_add_distrib, quadratic]
    congr 1
    · rw [← quadratic_transpose, mul_sum]; exact sum_congr rfl fun i _ => by ring
    · exact sum_congr rfl fun i _ => by ring
  constructor
  · obtain ⟨z, e1, e2⟩ := (isVector_range (fun j => 1 / 2 * tAt n A x j) n).add (isVector_self h.b)
    unfold objectiveEigen
    rw [h.cols, transposeTimes_ok h _ _ fun j hj => List.mem_range.mp hj]
    simp only [Outcome.bind, e1]
    rw [(isVector_self h.x).dot e2, hq]
  · unfold objectiveMKL
    rw [h.rows, csrmv_ok h _ _ _ fun j hj => List.mem_range.mp hj]
    simp only [Outcome.bind, one_mul]
    rw [(isVector_self h.x).dot (isVector_range _ n), hq]

/-- For a symmetric matrix, the gradient is `A x + b`, with Eigen and with MKL. -/
theorem C95_gradient {n : ℕ} {A : Csc K} {b x : List K} (h : Fits n A b x) (hs : Symmetric n A) :
    ∃ g, gradientEigen A b x = .ok g ∧ gradientMKL A b x = .ok g ∧ IsVector n (fun i => timesAt n A x i + b.getD i 0) g := by
  obtain ⟨z, e1, e2⟩ := (isVector_range (fun j => 1 * tAt n A x j) n).add (isVector_self h.b)
  obtain ⟨y, f1, f2⟩ := cscmv_ok h 1 1
  have hz : IsVector n (fun i => timesAt n A x i + b.getD i 0) z := e2.congr fun i hi => by rw [one_mul, tAt_symmetric hs x hi]
  have hy : IsVector n (fun i => timesAt n A x i + b.getD i 0) y := f2.congr fun i _ => by rw [one_mul, one_mul]
  refine ⟨z, ?_, ?_, hz⟩
  · unfold gradientEigen
    rw [h.cols, transposeTimes_ok h _ _ fun j hj => List.mem_range.mp hj]
    exact e1
  · rw [hz.eq hy]; exact f1

/-- For a symmetric matrix, the product is `A x`, with Eigen and with MKL. -/
theorem C95_multiply {n : ℕ} {A : Csc K} {b x : List K} (h : Fits n A b x) (hs : Symmetric n A) :
    ∃ y, multiplyEigen A x = .ok y ∧ multiplyMKL A x = .ok y ∧ IsVector n (timesAt n A x) y := by
  have h0 : Fits n A (x.map fun _ => 0) x := ⟨h.valid, h.rows, h.cols, by rw [List.length_map, h.x], h.x⟩
  obtain ⟨y, f1, f2⟩ := cscmv_ok h0 1 0
  have hy : IsVector n (timesAt n A x) y := f2.congr fun i _ => by rw [one_mul, zero_mul, add_zero]
  have hz : IsVector n (timesAt n A x) ((List.range n).map fun j => 1 * tAt n A x j) := (isVector_range _ n).congr fun i hi => by rw [one_mul, tAt_symmetric hs x hi]
  refine ⟨y, ?_, f1, hy⟩
  unfold multiplyEigen
  rw [h.cols, transposeTimes_ok h _ _ fun j hj => List.mem_range.mp hj, hz.eq hy]

/-- With MKL the gradient and the product are `A x + b` and `A x` for every matrix. -/
theorem C95_mkl {n : ℕ} {A : Csc K} {b x : List K} (h : Fits n A b x) :
    (∃ g, gradientMKL A b x = .ok g ∧ IsVector n (fun i => timesAt n A x i + b.getD i 0) g) ∧ ∃ y, multiplyMKL A x = .ok y ∧ IsVector n (timesAt n A x) y := by
  have h0 : Fits n A (x.map fun _ => 0) x := ⟨h.valid, h.rows, h.cols, by rw [List.length_map, h.x], h.x⟩
  obtain ⟨g, e1, e2⟩ := cscmv_ok h 1 1
  obtain ⟨y, f1, f2⟩ := cscmv_ok h0 1 0
  exact ⟨⟨g, e1, e2.congr fun i _ => by rw [one_mul, one_mul]⟩, y, f1, f2.congr fun i _ => by rw [one_mul, zero_mul, add_zero]⟩

/-- The gradient is the gradient of the objective: from `x` to any `z` the objective changes by the product of the gradient with the way `z - x`, up to the quadratic term `½ (z - x)ᵀ A (z - x)`, which is half the
product of the way with what the product function makes of it. -/
theorem C95_slope (h2 : (2 : K) ≠ 0) {n : ℕ} {A : Csc K} {b x z : List K} (h : Fits n A b x) (hz : z.length = n) (hs : Symmetric n A) :
    ∃ g d y fx fz gd yd, gradientEigen A b x = .ok g ∧ IsVector n (fun i => z.getD i 0 - x.getD i 0) d ∧ multiplyEigen A d = .ok y ∧ objectiveEigen A b x = .ok fx ∧ objectiveEigen A b z = .ok fz ∧
      dot g d = .ok gd ∧ dot d y = .ok yd ∧ fz = fx + gd + 1 / 2 * yd := by
  have hd := isVector_range (fun i => z.getD i 0 - x.getD i 0) n
  generalize (List.range n).map (fun i => z.getD i 0 - x.getD i 0) = d at hd
  have hfz : Fits n A b z := ⟨h.valid, h.rows, h.cols, h.b, hz⟩
  have hfd : Fits n A b d := ⟨h.valid, h.rows, h.cols, h.b, hd.1⟩
  obtain ⟨g, g1, _, g3⟩ := C95_gradient h hs
  obtain ⟨y, y1, _, y3⟩ := C95_multiply hfd hs
  refine ⟨g, d, y, _, _, _, _, g1, hd, y1, (C95_objective h).1, (C95_objective hfz).1, g3.dot hd, hd.dot y3, ?_⟩
  have hdt : ∀ i, timesAt n A d i = timesAt n A z i - timesAt n A x i := fun i => by
    simp only [timesAt, ← sum_sub_distrib]
    exact sum_congr rfl fun j hj => by rw [hd.2 j (mem_range.mp hj)]; ring
  have hsym : ∑ i ∈ range n, x.getD i 0 * timesAt n A z i = ∑ i ∈ range n, z.getD i 0 * timesAt n A x i := by
    simp only [timesAt, mul_sum]
    rw [sum_comm]
    exact sum_congr rfl fun i hi => sum_congr rfl fun j hj => by rw [hs j (mem_range.mp hj) i (mem_range.mp hi)]; ring
  have e1 : ∑ i ∈ range n, (timesAt n A x i + b.getD i 0) * (z.getD i 0 - x.getD i 0) =
      (∑ i ∈ range n, z.getD i 0 * timesAt n A x i - ∑ i ∈ range n, x.getD i 0 * timesAt n A x i) + (∑ i ∈ range n, b.getD i 0 * z.getD i 0 - ∑ i ∈ range n, b.getD i 0 * x.getD i 0) := by
    simp only [← sum_sub_distrib, ← sum_add_distrib]
    exact sum_congr rfl fun i _ => by ring
  have e2 : ∑ i ∈ range n, (z.getD i 0 - x.getD i 0) * timesAt n A d i =
      ∑ i ∈ range n, z.getD i 0 * timesAt n A z i - ∑ i ∈ range n, x.getD i 0 * timesAt n A z i - (∑ i ∈ range n, z.getD i 0 * timesAt n A x i - ∑ i ∈ range n, x.getD i 0 * timesAt n A x i) := by
    simp only [← sum_sub_distrib, hdt]
    exact sum_congr rfl fun i _ => by ring
  rw [e1, e2, hsym]
  simp only [quadratic]
  have h12 : (1 / 2 : K) * 2 = 1 := by field_simp
  linear_combination (∑ i ∈ range n, z.getD i 0 * timesAt n A x i - ∑ i ∈ range n, x.getD i 0 * timesAt n A x i) * h12

/-! ## Instances -/

/-- The matrix (2 1; 1 3), and one that is not symmetric: (0 1; 0 0) -/
def good : Csc ℚ := ⟨2, 2, [0, 2, 4], [0, 1, 0, 1], [2, 1, 1, 3]⟩
def skew : Csc ℚ := ⟨2, 2, [0, 0, 1], [0], [1]⟩

theorem good_fits : Fits 2 good [5, 7] [1, -1] := by
  refine ⟨⟨rfl, rfl, by decide, rfl, rfl, ?_⟩, rfl, rfl, rfl, rfl⟩
  intro j hj
  have : j = 0 ∨ j = 1 := by change j < 2 at hj; omega
  rcases this with rfl | rfl
  · exact ⟨[(0, 2), (1, 1)], rfl, by decide, by decide⟩
  · exact ⟨[(0, 1), (1, 3)], rfl, by decide, by decide⟩

theorem good_symmetric : Symmetric 2 good := by unfold Symmetric; decide +kernel

theorem skew_fits : Fits 2 skew [0, 0] [1, 0] := by
  refine ⟨⟨rfl, rfl, by decide, rfl, rfl, ?_⟩, rfl, rfl, rfl, rfl⟩
  intro j hj
  have : j = 0 ∨ j = 1 := by change j < 2 at hj; omega
  rcases this with rfl | rfl
  · exact ⟨[], rfl, by decide, by decide⟩
  · exact ⟨[(0, 1)], rfl, by decide, by decide⟩

/-- The values in a case -/
example : gradientEigen good [5, 7] [1, -1] = .ok [6, 5] ∧ gradientMKL good [5, 7] [1, -1] = .ok [6, 5] ∧ multiplyMKL good [1, -1] = .ok [1, -2] ∧ objectiveMKL good [5, 7] [1, -1] = .ok (-1 / 2) := by
  decide +kernel

/-- Without symmetry Eigen and MKL give different gradients and products. -/
theorem C95_symmetry_needed : ∃ (n : ℕ) (A : Csc ℚ) (b x : List ℚ), Fits n A b x ∧ gradientEigen A b x ≠ gradientMKL A b x ∧ multiplyEigen A x ≠ multiplyMKL A x :=
  ⟨2, skew, [0, 0], [1, 0], skew_fits, by decide +kernel, by decide +kernel⟩

end Scisim.Products
