import Verif.Lemmas.BoxPair3D
import Mathlib.Tactic.NormNum

/-! Concrete boxes: two beams that cross with their edges, and cubes that touch along an edge -/

namespace Scisim

open Matrix

/-- A beam along the first axis, rolled so that an edge is on top -/
noncomputable def rollA : Mat3 := !![1, 0, 0; 0, 3/5, -4/5; 0, 4/5, 3/5]

/-- The same beam turned about the third axis by the angle with cosine `c` and sine `s` -/
noncomputable def rollB (c s : ℝ) : Mat3 := !![c, -3/5 * s, 4/5 * s; s, 3/5 * c, -4/5 * c; 0, 4/5, 3/5]

theorem rollA_orth : rollA.transpose * rollA = 1 := by
  ext i j
  fin_cases i <;> fin_cases j <;> simp [rollA, Matrix.mul_apply, Fin.sum_univ_three] <;> norm_num

theorem rollB_orth {c s : ℝ} (h : c ^ 2 + s ^ 2 = 1) : (rollB c s).transpose * rollB c s = 1 := by
  ext i j
  fin_cases i <;> fin_cases j <;> simp [rollB, Matrix.mul_apply, Fin.sum_univ_three] <;> nlinarith

theorem scaled_len_lt {a o : ℝ} {g : Vec3} (ho : 0 < o) (h : a ^ 2 * (g ⬝ᵥ g) < o ^ 2) : a * len3 g < o := by
  rw [← len3_sq, ← mul_pow] at h
  exact lt_of_pow_lt_pow_left₀ 2 ho.le h

/-- The overlaps of two cubes with crossing edges -/
theorem cross_table : ∀ c, 1 ≤ c → c ≤ 15 → c ≠ 7 →
    21/200 * len3 (axisOf rollA (rollB 0 1) c) < overlap ![0, 0, 27/10] rollA ![1, 1, 1] (rollB 0 1) ![1, 1, 1] (axisOf rollA (rollB 0 1) c) := by
  intro c h1 h15 h7
  interval_cases c <;> try (exact absurd rfl h7)
  all_goals
    refine scaled_len_lt ?_ ?_ <;>
    simp [overlap, reach, axisOf, rollA, rollB, Mat3.column, dotProduct, Fin.sum_univ_three, Matrix.mul_apply, Matrix.vecHead, Matrix.vecTail] <;>
    norm_num

theorem beam_table : ∀ c, 1 ≤ c → c ≤ 15 → c ≠ 7 →
    21/200 * len3 (axisOf rollA (rollB (39999/40001) (400/40001)) c) <
      overlap ![0, 0, 27/10] rollA ![1000, 1, 1] (rollB (39999/40001) (400/40001)) ![1000, 1, 1] (axisOf rollA (rollB (39999/40001) (400/40001)) c) := by
  intro c h1 h15 h7
  interval_cases c <;> try (exact absurd rfl h7)
  all_goals
    refine scaled_len_lt ?_ ?_ <;>
    simp [overlap, reach, axisOf, rollA, rollB, Mat3.column, dotProduct, Fin.sum_univ_three, Matrix.mul_apply, Matrix.vecHead, Matrix.vecTail] <;>
    norm_num

theorem axis7 (c s : ℝ) : axisOf rollA (rollB c s) 7 = s • (![0, 0, 1] : Vec3) := by
  funext i
  fin_cases i <;> simp [axisOf, rollA, rollB, Fin.sum_univ_three, Matrix.mul_apply, Matrix.vecHead, Matrix.vecTail] <;> ring

theorem axis7_len {s : ℝ} (c : ℝ) (hs : 0 < s) : len3 (axisOf rollA (rollB c s) 7) = s := by
  rw [axis7, len3_smul, abs_of_pos hs, len3_eq_sqrt]
  simp [dotProduct, Fin.sum_univ_three]

theorem axis7_overlap {c s w : ℝ} (hs : 0 < s) : overlap ![0, 0, 27/10] rollA ![w, 1, 1] (rollB c s) ![w, 1, 1] (axisOf rollA (rollB c s) 7) = 1 / 10 * s := by
  rw [axis7, overlap, reach_smul, reach_smul, smul_dotProduct, smul_eq_mul, abs_mul, abs_of_pos hs, ← mul_add, ← mul_sub, mul_comm]
  congr 1
  simp [reach, rollA, rollB, Mat3.column, dotProduct, Fin.sum_univ_three]
  norm_num

/-- The edge with code 7 is chosen when the overlap along it is the least by more than the bias -/
theorem chosen7 {c s w : ℝ} (hcs : c ^ 2 + s ^ 2 = 1) (hs : 0 < s)
    (htab : ∀ k, 1 ≤ k → k ≤ 15 → k ≠ 7 → 21/200 * len3 (axisOf rollA (rollB c s) k) < overlap ![0, 0, 27/10] rollA ![w, 1, 1] (rollB c s) ![w, 1, 1] (axisOf rollA (rollB c s) k)) :
    (∀ f, 1 / 10 * len3 f ≤ reach rollA.column ![w, 1, 1] f + reach (rollB c s).column ![w, 1, 1] f - f ⬝ᵥ ![0, 0, 27/10]) ∧
    ∃ st, separatingAxes3 0 rollA ![w, 1, 1] ![0, 0, 27/10] (rollB c s) ![w, 1, 1] = some st ∧ st.code = 7 ∧ satNormal3 rollA (rollB c s) st = ![0, 0, 1] := by
  have hA := rollA_orth
  have hB := rollB_orth hcs
  have hall := tested_all (p := ![0, 0, 27/10]) (s := ![w, 1, 1]) (s' := ![w, 1, 1]) (ρ := 1 / 10) hA hB (by norm_num) (fun k h1 h15 => by
    by_cases h7 : k = 7
    · rw [h7, axis7_overlap hs, axis7_len c hs]
    · have h2 := htab k h1 h15 h7
      have h3 := len3_nonneg (axisOf rollA (rollB c s) k)
      linarith)
  refine ⟨hall, ?_⟩
  cases hst : separatingAxes3 0 rollA ![w, 1, 1] ![0, 0, 27/10] (rollB c s) ![w, 1, 1] with
  | none =>
    exfalso
    obtain ⟨g, hg⟩ := separatingAxes3_none hA hB hst
    rw [sub_zero] at hg
    have h1 := hall g
    have h2 := hall (-g)
    rw [reach_neg, reach_neg, neg_dotProduct] at h2
    have h3 := mul_nonneg (show (0 : ℝ) ≤ 1 / 10 by norm_num) (len3_nonneg g)
    have h4 := mul_nonneg (show (0 : ℝ) ≤ 1 / 10 by norm_num) (len3_nonneg (-g))
    rw [overlap] at hg
    rcases abs_cases (g ⬝ᵥ ![0, 0, 27/10]) with ⟨h5, -⟩ | ⟨h5, -⟩ <;> linarith
  | some st =>
    refine ⟨st, rfl, ?_⟩
    obtain ⟨x, ht⟩ := separatingAxes3_some hA hB hst
    rw [sub_zero] at ht
    have hx : x ≤ 21 / 200 := by
      have h1 := ht.edges 7 (le_refl _) (by norm_num)
      rw [axis7_overlap hs, axis7_len c hs] at h1
      have : x * s ≤ 21 / 200 * s := by linarith
      exact le_of_mul_le_mul_right this hs
    have hcode : st.code = 7 := by
      by_contra h7
      have h1 := htab st.code ht.code1 ht.coden h7
      rw [← ht.axis] at h1
      have h2 := mul_le_mul_of_nonneg_right hx (len3_nonneg (axisOf rollA (rollB c s) st.code))
      linarith
    refine ⟨hcode, ?_⟩
    obtain ⟨hnn, hnp, -, κ, -, hκ⟩ := satNormal3_spec hA hB ht
    rw [hcode, axis7, smul_smul] at hκ
    rw [hκ] at hnn hnp ⊢
    rw [smul_dotProduct, dotProduct_smul] at hnn
    rw [smul_dotProduct] at hnp
    simp [dotProduct, Fin.sum_univ_three] at hnn hnp
    have : κ * s = 1 := by nlinarith
    rw [this, one_smul]

/-! ### Clipping when everything is on one side -/

theorem chopLoop_inside (h : Pt2) (dir : Fin 2) (sign : ℝ) (first : Pt2) (hf : sign * first dir < h dir) : ∀ (q r : List Pt2), (∀ p ∈ q, sign * p dir < h dir) →
    r.length + q.length < 8 → chopLoop h dir sign first q r = (r ++ q, false)
  | [], r, _, _ => by rw [chopLoop, List.append_nil]
  | p :: rest, r, hq, hlen => by
    rw [List.length_cons] at hlen
    have hp := hq p (List.mem_cons_self ..)
    have hbit : (r.length + 1).testBit 3 = false := by
      have : r.length + 1 < 8 := by omega
      exact Nat.testBit_lt_two_pow this
    have hnext : sign * (rest.headD first) dir < h dir := by
      cases rest with
      | nil => exact hf
      | cons a l => exact hq a (by simp)
    rw [chopLoop]
    simp only [hp, if_true, pushPoint, hbit, hnext, ne_eq, not_true_eq_false, if_false]
    rw [chopLoop_inside h dir sign first hf rest (r ++ [p]) (fun a ha => hq a (List.mem_cons_of_mem _ ha)) (by simp; omega)]
    simp

theorem chopLoop_outside (h : Pt2) (dir : Fin 2) (sign : ℝ) (first : Pt2) (hf : ¬ sign * first dir < h dir) : ∀ (q r : List Pt2), (∀ p ∈ q, ¬ sign * p dir < h dir) →
    chopLoop h dir sign first q r = (r, false)
  | [], r, _ => by rw [chopLoop]
  | p :: rest, r, hq => by
    have hp := hq p (List.mem_cons_self ..)
    have hnext : ¬ sign * (rest.headD first) dir < h dir := by
      cases rest with
      | nil => exact hf
      | cons a l => exact hq a (by simp)
    rw [chopLoop]
    simp only [hp, hnext, ne_eq, not_true_eq_false, if_false]
    exact chopLoop_outside h dir sign first hf rest r (fun a ha => hq a (List.mem_cons_of_mem _ ha))

theorem chopAll_nil (h : Pt2) : ∀ l, chopAll h l [] = []
  | [] => rfl
  | (dir, sign) :: rest => by
    rw [chopAll, chopLoop]
    exact chopAll_nil h rest

theorem clip_empty (h : Pt2) (x y z w : Pt2) (hh : 0 < h 0) (hq : (∀ p ∈ [x, y, z, w], h 0 ≤ p 0) ∨ ∀ p ∈ [x, y, z, w], p 0 ≤ -h 0) :
    intersectRectQuad h [x, y, z, w] = [] := by
  unfold intersectRectQuad
  rcases hq with hq | hq
  · rw [chopAll, chopLoop_inside h 0 (-1) _ (by
      have := hq x (by simp)
      rw [List.headD_cons]; linarith) _ _ (fun p hp => by linarith [hq p hp]) (by simp)]
    simp only [List.nil_append]
    rw [chopAll, chopLoop_outside h 0 1 _ (by
      have := hq x (by simp)
      rw [List.headD_cons]; linarith) _ _ (fun p hp => by linarith [hq p hp])]
    exact chopAll_nil h _
  · rw [chopAll, chopLoop_outside h 0 (-1) _ (by
      have := hq x (by simp)
      rw [List.headD_cons]; linarith) _ _ (fun p hp => by linarith [hq p hp])]
    exact chopAll_nil h _

/-- Two cubes that touch along an edge: nothing is left of the incident face -/
theorem touching_face (pa pb n : Vec3) (c : Fin 3) {σ : ℝ} (hσ : σ = 1 ∨ σ = -1) (hn : n = σ • (1 : Mat3).column c) (hc : c ≠ 2)
    (hp : 2 ≤ |(pb - pa) (referenceAxes c).1|) : faceContacts pa 1 ![1, 1, 1] pb 1 ![1, 1, 1] n c = [] := by
  have h1 : (1 : Mat3).transpose * 1 = 1 := by simp
  have hone : ∀ i : Fin 3, (![1, 1, 1] : Vec3) i = 1 := fun i => by fin_cases i <;> rfl
  obtain ⟨L, τ, P, w, x, y, v, hpar, hview, hτ, hτn, hbig, hhull, hproj, -, -⟩ := faceContacts_view pa ![1, 1, 1] pb ![1, 1, 1] n c h1 h1 (fun i => by rw [hone]; exact one_pos) hσ hn
  have hfr := frame_of_orthogonal h1
  have hL : L = c := by
    by_contra hne
    rw [hn, smul_dotProduct, hfr.ortho, if_neg (Ne.symm hne), smul_zero] at hbig
    norm_num at hbig
  subst hL
  have hval : ∀ p ∈ [w, x, y, v], ∃ y1 : ℝ, |y1| ≤ 1 ∧ p 0 = (pb - pa) (referenceAxes L).1 + y1 := by
    intro p hp
    obtain ⟨y1, y2, hy1, hy2, hP⟩ := hhull p (subset_convexHull ℝ {p | p ∈ [w, x, y, v]} hp)
    rw [hone] at hy1
    refine ⟨y1, hy1, ?_⟩
    rw [← (hproj p).1, hP, one_mulVec, add_dotProduct]
    congr 1
    · fin_cases L <;> simp [Mat3.column, referenceAxes, dotProduct, Matrix.one_apply]
    · fin_cases L <;> simp [Mat3.column, referenceAxes, dotProduct, Matrix.one_apply, axesVec]
  rw [hview, clip_empty _ w x y v (by simp [hone]) ?_]
  · rfl
  · simp only [cons_val_zero, hone]
    rcases le_abs.mp hp with h | h
    · left
      intro p hpm
      obtain ⟨y1, hy1, e⟩ := hval p hpm
      rw [e]; linarith [(abs_le.mp hy1).1]
    · right
      intro p hpm
      obtain ⟨y1, hy1, e⟩ := hval p hpm
      rw [e]; linarith [(abs_le.mp hy1).2]

end Scisim
