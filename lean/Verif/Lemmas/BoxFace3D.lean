import Verif.Lemmas.BoxBox3D
import Verif.Lemmas.BoxClip

/-! The contact points when a face of one box is the reference: they lie in the other box and within the overlap of the face, and there is one. -/

namespace Scisim

open Matrix Topology

theorem incidentAxes_spec (nr : Vec3) : ∃ L : Fin 3, incidentAxes nr = (L, (referenceAxes L).1, (referenceAxes L).2) ∧ ∀ k, |nr k| ≤ |nr L| := by
  unfold incidentAxes
  split
  · rename_i h10
    split
    · rename_i h12
      exact ⟨1, rfl, fun k => by fin_cases k <;> simp <;> linarith⟩
    · rename_i h12
      exact ⟨2, rfl, fun k => by fin_cases k <;> simp <;> linarith⟩
  · rename_i h10
    split
    · rename_i h02
      exact ⟨0, rfl, fun k => by fin_cases k <;> simp <;> linarith⟩
    · rename_i h02
      exact ⟨2, rfl, fun k => by fin_cases k <;> simp <;> linarith⟩

theorem det_entry {R : Mat3} (h : R.transpose * R = 1) (c L : Fin 3) :
    |R (referenceAxes c).1 (referenceAxes L).1 * R (referenceAxes c).2 (referenceAxes L).2 -
      R (referenceAxes c).1 (referenceAxes L).2 * R (referenceAxes c).2 (referenceAxes L).1| = |R c L| := by
  obtain ⟨ε, hε, c00, c01, c02, c10, c11, c12, c20, c21, c22⟩ := cofactors h
  have key : ∀ x y : ℝ, (x = ε * y ∨ x = -(ε * y)) → |x| = |y| := by
    rintro x y (rfl | rfl)
    · exact abs_unit_mul hε
    · exact abs_neg_unit_mul hε
  apply key
  fin_cases c <;> fin_cases L <;> simp [referenceAxes]
  · left; linarith
  · right; linarith
  · left; linarith
  · right; linarith
  · left; linarith
  · right; linarith
  · left; linarith
  · right; linarith
  · left; linarith

theorem dot_frame (R : Mat3) (h : R.transpose * R = 1) (L : Fin 3) : Frame R.column ∧ L ≠ (referenceAxes L).1 ∧ L ≠ (referenceAxes L).2 ∧ (referenceAxes L).1 ≠ (referenceAxes L).2 :=
  ⟨frame_of_orthogonal h, by fin_cases L <;> decide, by fin_cases L <;> decide, by fin_cases L <;> decide⟩

theorem reach_axes (u : Fin 3 → Vec3) (s f : Vec3) (L : Fin 3) :
    reach u s f = s L * |f ⬝ᵥ u L| + s (referenceAxes L).1 * |f ⬝ᵥ u (referenceAxes L).1| + s (referenceAxes L).2 * |f ⬝ᵥ u (referenceAxes L).2| := by
  fin_cases L <;> simp [reach, referenceAxes] <;> ring

/-- The coordinates with respect to the axis `L` and the two others -/
def axesVec (L : Fin 3) (x y z : ℝ) : Vec3 := fun i => if i = L then x else if i = (referenceAxes L).1 then y else z

theorem axesVec_mulVec (R : Mat3) (L : Fin 3) (x y z : ℝ) :
    R *ᵥ axesVec L x y z = x • R.column L + y • R.column (referenceAxes L).1 + z • R.column (referenceAxes L).2 := by
  rw [mulVec_columns]
  fin_cases L <;> simp [axesVec, referenceAxes] <;> abel

theorem axesVec_le {L : Fin 3} {x y z : ℝ} {w : Vec3} (hx : |x| ≤ w L) (hy : |y| ≤ w (referenceAxes L).1) (hz : |z| ≤ w (referenceAxes L).2) :
    ∀ i, |axesVec L x y z i| ≤ w i := by
  intro i
  fin_cases L <;> fin_cases i <;> simp [axesVec, referenceAxes] at * <;> assumption

/-- The incident face in the coordinates of the reference face is a parallelogram -/
theorem hull_quad {c1 c2 k1 k2 k3 k4 : ℝ} {r : Pt2}
    (hr : r ∈ convexHull ℝ {p | p ∈ ([![c1 - k1 - k3, c2 - k2 - k4], ![c1 - k1 + k3, c2 - k2 + k4], ![c1 + k1 + k3, c2 + k2 + k4],
      ![c1 + k1 - k3, c2 + k2 - k4]] : List Pt2)}) :
    ∃ a b : ℝ, |a| ≤ 1 ∧ |b| ≤ 1 ∧ r 0 = c1 + a * k1 + b * k3 ∧ r 1 = c2 + a * k2 + b * k4 := by
  have hconv : Convex ℝ {r : Pt2 | ∃ a b : ℝ, |a| ≤ 1 ∧ |b| ≤ 1 ∧ r 0 = c1 + a * k1 + b * k3 ∧ r 1 = c2 + a * k2 + b * k4} := by
    rintro x ⟨a, b, ha, hb, h0, h1⟩ y ⟨a', b', ha', hb', h0', h1'⟩ s t hs ht hst
    have habs : ∀ u v : ℝ, |u| ≤ 1 → |v| ≤ 1 → |s * u + t * v| ≤ 1 := by
      intro u v hu hv
      calc |s * u + t * v| ≤ |s * u| + |t * v| := abs_add_le _ _
        _ = s * |u| + t * |v| := by rw [abs_mul, abs_mul, abs_of_nonneg hs, abs_of_nonneg ht]
        _ ≤ s * 1 + t * 1 := add_le_add (mul_le_mul_of_nonneg_left hu hs) (mul_le_mul_of_nonneg_left hv ht)
        _ = 1 := by rw [mul_one, mul_one, hst]
    refine ⟨s * a + t * a', s * b + t * b', habs _ _ ha ha', habs _ _ hb hb', ?_, ?_⟩
    · simp only [Pi.add_apply, Pi.smul_apply, smul_eq_mul, h0, h0']
      linear_combination c1 * hst
    · simp only [Pi.add_apply, Pi.smul_apply, smul_eq_mul, h1, h1']
      linear_combination c2 * hst
  refine convexHull_min ?_ hconv hr
  intro p hp
  simp only [List.mem_cons, List.not_mem_nil, or_false, Set.mem_ofPred_eq] at hp
  rcases hp with rfl | rfl | rfl | rfl
  · exact ⟨-1, -1, by norm_num, by norm_num, by simp; ring, by simp; ring⟩
  · exact ⟨-1, 1, by norm_num, by norm_num, by simp; ring, by simp; ring⟩
  · exact ⟨1, 1, by norm_num, by norm_num, by simp, by simp⟩
  · exact ⟨1, -1, by norm_num, by norm_num, by simp; ring, by simp; ring⟩

theorem quad_hull {c1 c2 k1 k2 k3 k4 a b : ℝ} (ha : |a| ≤ 1) (hb : |b| ≤ 1) :
    (![c1 + a * k1 + b * k3, c2 + a * k2 + b * k4] : Pt2) ∈ convexHull ℝ {p | p ∈ ([![c1 - k1 - k3, c2 - k2 - k4], ![c1 - k1 + k3, c2 - k2 + k4],
      ![c1 + k1 + k3, c2 + k2 + k4], ![c1 + k1 - k3, c2 + k2 - k4]] : List Pt2)} := by
  set C := convexHull ℝ {p | p ∈ ([![c1 - k1 - k3, c2 - k2 - k4], ![c1 - k1 + k3, c2 - k2 + k4], ![c1 + k1 + k3, c2 + k2 + k4],
      ![c1 + k1 - k3, c2 + k2 - k4]] : List Pt2)} with hC
  have hconv : Convex ℝ C := convex_convexHull ℝ _
  have hin : ∀ p ∈ ([![c1 - k1 - k3, c2 - k2 - k4], ![c1 - k1 + k3, c2 - k2 + k4], ![c1 + k1 + k3, c2 + k2 + k4], ![c1 + k1 - k3, c2 + k2 - k4]] : List Pt2),
    p ∈ C := fun p hp => subset_convexHull ℝ _ hp
  rw [abs_le] at ha hb
  have hlow : (![c1 - k1 + b * k3, c2 - k2 + b * k4] : Pt2) ∈ C := by
    have := hconv (hin ![c1 - k1 - k3, c2 - k2 - k4] (by simp)) (hin ![c1 - k1 + k3, c2 - k2 + k4] (by simp))
      (show 0 ≤ (1 - b) / 2 by linarith) (show 0 ≤ (1 + b) / 2 by linarith) (by ring)
    convert this using 1
    funext k
    fin_cases k <;> simp <;> ring
  have hhigh : (![c1 + k1 + b * k3, c2 + k2 + b * k4] : Pt2) ∈ C := by
    have := hconv (hin ![c1 + k1 - k3, c2 + k2 - k4] (by simp)) (hin ![c1 + k1 + k3, c2 + k2 + k4] (by simp))
      (show 0 ≤ (1 - b) / 2 by linarith) (show 0 ≤ (1 + b) / 2 by linarith) (by ring)
    convert this using 1
    funext k
    fin_cases k <;> simp <;> ring
  have := hconv hlow hhigh (show 0 ≤ (1 - a) / 2 by linarith) (show 0 ≤ (1 + a) / 2 by linarith) (by ring)
  convert this using 1
  funext k
  fin_cases k <;> simp <;> ring

/-- What the program does with a reference face, in terms of the incident face -/
theorem faceContacts_view (pa : Vec3) {Ra : Mat3} (Sa pb : Vec3) {Rb : Mat3} (Sb n : Vec3) (c : Fin 3) (ha : Ra.transpose * Ra = 1) (hb : Rb.transpose * Rb = 1)
    (hSb : ∀ i, 0 < Sb i) {σ : ℝ} (hσ : σ = 1 ∨ σ = -1) (hn : n = σ • Ra.column c) :
    ∃ (L : Fin 3) (τ : ℝ) (P : Pt2 → Vec3) (w x y z : Pt2), w + y = x + z ∧
      faceContacts pa Ra Sa pb Rb Sb n c = (intersectRectQuad ![Sa (referenceAxes c).1, Sa (referenceAxes c).2] [w, x, y, z]).filterMap
        (fun r => if 0 ≤ Sa c - n ⬝ᵥ P r then some (P r + pa) else none) ∧
      (τ = 1 ∨ τ = -1) ∧ τ * (n ⬝ᵥ Rb.column L) = |n ⬝ᵥ Rb.column L| ∧ 1 ≤ 3 * (n ⬝ᵥ Rb.column L) ^ 2 ∧
      (∀ r ∈ convexHull ℝ {p | p ∈ [w, x, y, z]}, ∃ y1 y2 : ℝ, |y1| ≤ Sb (referenceAxes L).1 ∧ |y2| ≤ Sb (referenceAxes L).2 ∧
        P r = pb - pa + Rb *ᵥ axesVec L (-(τ * Sb L)) y1 y2) ∧
      (∀ r, P r ⬝ᵥ Ra.column (referenceAxes c).1 = r 0 ∧ P r ⬝ᵥ Ra.column (referenceAxes c).2 = r 1) ∧
      (∀ y1 y2 : ℝ, |y1| ≤ Sb (referenceAxes L).1 → |y2| ≤ Sb (referenceAxes L).2 →
        ∃ r ∈ convexHull ℝ {p | p ∈ [w, x, y, z]}, P r = pb - pa + Rb *ᵥ axesVec L (-(τ * Sb L)) y1 y2) ∧
      (∀ (a b : ℝ) (r r' : Pt2), a + b = 1 → P (a • r + b • r') = a • P r + b • P r') := by
  obtain ⟨L, hL, hmax⟩ := incidentAxes_spec (Rb.transpose *ᵥ n)
  have hfa := frame_of_orthogonal ha
  have hfb := frame_of_orthogonal hb
  have hnr : ∀ k, (Rb.transpose *ᵥ n) k = n ⬝ᵥ Rb.column k := fun k => dotProduct_comm _ _
  have hnn : n ⬝ᵥ n = 1 := by
    rw [hn, smul_dotProduct, dotProduct_smul, hfa.ortho, if_pos rfl]
    rcases hσ with rfl | rfl <;> norm_num
  -- the largest component
  have hbig : 1 ≤ 3 * (n ⬝ᵥ Rb.column L) ^ 2 := by
    have hx : n ⬝ᵥ n = (n ⬝ᵥ Rb.column 0) ^ 2 + (n ⬝ᵥ Rb.column 1) ^ 2 + (n ⬝ᵥ Rb.column 2) ^ 2 := by
      conv_lhs => rw [hfb.expand n]
      simp only [dotProduct_add, add_dotProduct, smul_dotProduct, dotProduct_smul, hfb.ortho, smul_eq_mul]
      simp
      ring
    have h0 := sq_le_sq.mpr (by simpa only [hnr] using hmax 0)
    have h1 := sq_le_sq.mpr (by simpa only [hnr] using hmax 1)
    have h2 := sq_le_sq.mpr (by simpa only [hnr] using hmax 2)
    rw [hnn] at hx
    linarith
  have hcL : (Ra.transpose * Rb) c L = σ * (n ⬝ᵥ Rb.column L) := by
    have : (Ra.transpose * Rb) c L = Ra.column c ⬝ᵥ Rb.column L := rfl
    rw [this, hn, smul_dotProduct, smul_eq_mul, ← mul_assoc]
    rcases hσ with rfl | rfl <;> ring
  set m11 := Ra.column (referenceAxes c).1 ⬝ᵥ Rb.column (referenceAxes L).1 with hm11
  set m12 := Ra.column (referenceAxes c).1 ⬝ᵥ Rb.column (referenceAxes L).2 with hm12
  set m21 := Ra.column (referenceAxes c).2 ⬝ᵥ Rb.column (referenceAxes L).1 with hm21
  set m22 := Ra.column (referenceAxes c).2 ⬝ᵥ Rb.column (referenceAxes L).2 with hm22
  have hdet : m11 * m22 - m12 * m21 ≠ 0 := by
    intro h0
    have hd := det_entry (orthogonal_of_frames ha hb) c L
    change |m11 * m22 - m12 * m21| = _ at hd
    rw [h0, abs_zero, hcL] at hd
    have hz : σ * (n ⬝ᵥ Rb.column L) = 0 := abs_eq_zero.mp hd.symm
    have hz' : n ⬝ᵥ Rb.column L = 0 := by
      rcases mul_eq_zero.mp hz with h | h
      · rcases hσ with rfl | rfl <;> norm_num at h
      · exact h
    rw [hz'] at hbig
    norm_num at hbig
  set τ : ℝ := if n ⬝ᵥ Rb.column L < 0 then -1 else 1 with hτdef
  have hτ : τ = 1 ∨ τ = -1 := by
    rw [hτdef]; split
    · exact Or.inr rfl
    · exact Or.inl rfl
  have hτabs : τ * (n ⬝ᵥ Rb.column L) = |n ⬝ᵥ Rb.column L| := by
    rw [hτdef]; split
    · rename_i h; rw [abs_of_neg h]; ring
    · rename_i h; rw [abs_of_nonneg (not_lt.mp h)]; ring
  set center : Vec3 := pb - pa - (τ * Sb L) • Rb.column L with hcenter
  have hcen : (if (Rb.transpose *ᵥ n) L < 0 then pb - pa + Sb L • Rb.column L else pb - pa - Sb L • Rb.column L) = center := by
    rw [hnr, hcenter, hτdef]
    split
    · rw [neg_one_mul, neg_smul, sub_neg_eq_add]
    · rw [one_mul]
  set c1 := center ⬝ᵥ Ra.column (referenceAxes c).1 with hc1
  set c2 := center ⬝ᵥ Ra.column (referenceAxes c).2 with hc2
  set D := 1 / (m11 * m22 - m12 * m21) with hD
  let k1 : Pt2 → ℝ := fun r => m22 * D * (r 0 - c1) - m12 * D * (r 1 - c2)
  let k2 : Pt2 → ℝ := fun r => -(m21 * D) * (r 0 - c1) + m11 * D * (r 1 - c2)
  let P : Pt2 → Vec3 := fun r => fun i => center i + k1 r * Rb i (referenceAxes L).1 + k2 r * Rb i (referenceAxes L).2
  have hP : ∀ r, P r = center + k1 r • Rb.column (referenceAxes L).1 + k2 r • Rb.column (referenceAxes L).2 := fun r => rfl
  have hPbox : ∀ r, P r = pb - pa + Rb *ᵥ axesVec L (-(τ * Sb L)) (k1 r) (k2 r) := by
    intro r
    rw [hP, axesVec_mulVec, hcenter, neg_smul]; abel
  have hDm : D * (m11 * m22 - m12 * m21) = 1 := by rw [hD]; exact one_div_mul_cancel hdet
  have hs1 : ∀ r, m11 * k1 r + m12 * k2 r = r 0 - c1 := by
    intro r; simp only [k1, k2]; linear_combination (r 0 - c1) * hDm
  have hs2 : ∀ r, m21 * k1 r + m22 * k2 r = r 1 - c2 := by
    intro r; simp only [k1, k2]; linear_combination (r 1 - c2) * hDm
  have hks : ∀ (r : Pt2) (y1 y2 : ℝ), r 0 = c1 + m11 * y1 + m12 * y2 → r 1 = c2 + m21 * y1 + m22 * y2 → k1 r = y1 ∧ k2 r = y2 := by
    intro r y1 y2 h0 h1
    constructor
    · simp only [k1, h0, h1]; linear_combination y1 * hDm
    · simp only [k2, h0, h1]; linear_combination y2 * hDm
  refine ⟨L, τ, P, ![c1 - m11 * Sb (referenceAxes L).1 - m12 * Sb (referenceAxes L).2, c2 - m21 * Sb (referenceAxes L).1 - m22 * Sb (referenceAxes L).2],
    ![c1 - m11 * Sb (referenceAxes L).1 + m12 * Sb (referenceAxes L).2, c2 - m21 * Sb (referenceAxes L).1 + m22 * Sb (referenceAxes L).2],
    ![c1 + m11 * Sb (referenceAxes L).1 + m12 * Sb (referenceAxes L).2, c2 + m21 * Sb (referenceAxes L).1 + m22 * Sb (referenceAxes L).2],
    ![c1 + m11 * Sb (referenceAxes L).1 - m12 * Sb (referenceAxes L).2, c2 + m21 * Sb (referenceAxes L).1 - m22 * Sb (referenceAxes L).2], ?_, ?_, hτ, hτabs, hbig,
    ?_, ?_, ?_, ?_⟩
  · funext k
    fin_cases k <;> simp
  · unfold faceContacts
    simp only [hL, hcen]
    rfl
  · intro r hr
    obtain ⟨a, b, ha1, hb1, h0, h1⟩ := hull_quad hr
    obtain ⟨e1, e2⟩ := hks r (a * Sb (referenceAxes L).1) (b * Sb (referenceAxes L).2) (by rw [h0]; ring) (by rw [h1]; ring)
    refine ⟨k1 r, k2 r, ?_, ?_, hPbox r⟩
    · rw [e1, abs_mul, abs_of_pos (hSb _)]
      exact mul_le_of_le_one_left (hSb _).le ha1
    · rw [e2, abs_mul, abs_of_pos (hSb _)]
      exact mul_le_of_le_one_left (hSb _).le hb1
  · intro r
    constructor
    · rw [hP, add_dotProduct, add_dotProduct, smul_dotProduct, smul_dotProduct, smul_eq_mul, smul_eq_mul, ← hc1,
        dotProduct_comm (Rb.column (referenceAxes L).1), dotProduct_comm (Rb.column (referenceAxes L).2), ← hm11, ← hm12]
      linear_combination hs1 r
    · rw [hP, add_dotProduct, add_dotProduct, smul_dotProduct, smul_dotProduct, smul_eq_mul, smul_eq_mul, ← hc2,
        dotProduct_comm (Rb.column (referenceAxes L).1), dotProduct_comm (Rb.column (referenceAxes L).2), ← hm21, ← hm22]
      linear_combination hs2 r
  · intro y1 y2 hy1 hy2
    have hh := quad_hull (c1 := c1) (c2 := c2) (k1 := m11 * Sb (referenceAxes L).1) (k2 := m21 * Sb (referenceAxes L).1) (k3 := m12 * Sb (referenceAxes L).2)
      (k4 := m22 * Sb (referenceAxes L).2) (a := y1 / Sb (referenceAxes L).1) (b := y2 / Sb (referenceAxes L).2)
      (by rw [abs_div, abs_of_pos (hSb _)]; exact (div_le_one (hSb _)).mpr hy1) (by rw [abs_div, abs_of_pos (hSb _)]; exact (div_le_one (hSb _)).mpr hy2)
    have hq1 : y1 / Sb (referenceAxes L).1 * Sb (referenceAxes L).1 = y1 := div_mul_cancel₀ _ (hSb _).ne'
    have hq2 : y2 / Sb (referenceAxes L).2 * Sb (referenceAxes L).2 = y2 := div_mul_cancel₀ _ (hSb _).ne'
    rw [show (![c1 + y1 / Sb (referenceAxes L).1 * (m11 * Sb (referenceAxes L).1) + y2 / Sb (referenceAxes L).2 * (m12 * Sb (referenceAxes L).2),
      c2 + y1 / Sb (referenceAxes L).1 * (m21 * Sb (referenceAxes L).1) + y2 / Sb (referenceAxes L).2 * (m22 * Sb (referenceAxes L).2)] : Pt2) =
      ![c1 + m11 * y1 + m12 * y2, c2 + m21 * y1 + m22 * y2] from by
        congr 1
        · linear_combination m11 * hq1 + m12 * hq2
        · congr 1
          linear_combination m21 * hq1 + m22 * hq2] at hh
    refine ⟨_, hh, ?_⟩
    obtain ⟨e1, e2⟩ := hks ![c1 + m11 * y1 + m12 * y2, c2 + m21 * y1 + m22 * y2] y1 y2 rfl rfl
    rw [hPbox, e1, e2]
  · intro a b r r' hab
    funext i
    simp only [P, k1, k2, Pi.add_apply, Pi.smul_apply, smul_eq_mul]
    linear_combination (-(center i) + (m22 * D * c1 - m12 * D * c2) * Rb i (referenceAxes L).1 + (-(m21 * D) * c1 + m11 * D * c2) * Rb i (referenceAxes L).2) * hab

/-- The points lie in the other box; each can be moved onto the reference face along its normal by at most the overlap -/
theorem faceContacts_mem (pa : Vec3) {Ra : Mat3} {Sa : Vec3} (pb : Vec3) {Rb : Mat3} {Sb n : Vec3} {c : Fin 3} (ha : Ra.transpose * Ra = 1)
    (hb : Rb.transpose * Rb = 1) (hSa : ∀ i, 0 < Sa i) (hSb : ∀ i, 0 < Sb i) {σ : ℝ} (hσ : σ = 1 ∨ σ = -1) (hn : n = σ • Ra.column c) {z : Vec3}
    (hz : z ∈ faceContacts pa Ra Sa pb Rb Sb n c) : z ∈ boxSet3 pb Rb Sb ∧
      ∃ t, 0 ≤ t ∧ t ≤ Sa c + reach Rb.column Sb n - n ⬝ᵥ (pb - pa) ∧ z + t • n ∈ boxSet3 pa Ra Sa := by
  obtain ⟨L, τ, P, w, x, y, v, hpar, hview, hτ, -, -, hhull, hproj, -, -⟩ := faceContacts_view pa Sa pb Sb n c ha hb hSb hσ hn
  have hfa := frame_of_orthogonal ha
  rw [hview, List.mem_filterMap] at hz
  obtain ⟨r, hr, hsome⟩ := hz
  split at hsome
  · rename_i hdep
    cases hsome
    obtain ⟨hrh, hrect⟩ := (intersectRectQuad_spec _ w x y v hpar).1 r hr
    obtain ⟨y1, y2, hy1, hy2, hP⟩ := hhull r hrh
    have hzb : P r + pa ∈ boxSet3 pb Rb Sb := by
      refine ⟨axesVec L (-(τ * Sb L)) y1 y2, axesVec_le ?_ hy1 hy2, ?_⟩
      · rw [abs_neg, abs_mul, abs_of_pos (hSb L)]
        rcases hτ with rfl | rfl <;> simp
      · rw [hP]; abel
    refine ⟨hzb, Sa c - n ⬝ᵥ P r, hdep, ?_, ?_⟩
    · have h1 := dot_ge_reach hzb n
      rw [dotProduct_add] at h1
      rw [dotProduct_sub]
      linarith
    · set q : Vec3 := P r + (Sa c - n ⬝ᵥ P r) • n with hq
      have hnn : n ⬝ᵥ n = 1 := by
        rw [hn, smul_dotProduct, dotProduct_smul, hfa.ortho, if_pos rfl]
        rcases hσ with rfl | rfl <;> norm_num
      obtain ⟨-, hne1, hne2, -⟩ := dot_frame Ra ha c
      have hn1 : n ⬝ᵥ Ra.column (referenceAxes c).1 = 0 := by rw [hn, smul_dotProduct, hfa.ortho, if_neg hne1, smul_zero]
      have hn2 : n ⬝ᵥ Ra.column (referenceAxes c).2 = 0 := by rw [hn, smul_dotProduct, hfa.ortho, if_neg hne2, smul_zero]
      have hnq : n ⬝ᵥ q = Sa c := by rw [hq, dotProduct_add, dotProduct_smul, hnn, smul_eq_mul]; ring
      have hqc : q ⬝ᵥ Ra.column c = σ * Sa c := by
        rw [← hnq, hn, smul_dotProduct, smul_eq_mul, ← mul_assoc, dotProduct_comm]
        rcases hσ with rfl | rfl <;> ring
      refine ⟨axesVec c (σ * Sa c) (r 0) (r 1), axesVec_le ?_ ?_ ?_, ?_⟩
      · rw [abs_mul, abs_of_pos (hSa c)]
        rcases hσ with rfl | rfl <;> simp
      · exact hrect 0
      · exact hrect 1
      · have hex : q = (q ⬝ᵥ Ra.column c) • Ra.column c + (q ⬝ᵥ Ra.column (referenceAxes c).1) • Ra.column (referenceAxes c).1 +
            (q ⬝ᵥ Ra.column (referenceAxes c).2) • Ra.column (referenceAxes c).2 := by
          have := hfa.expand q
          fin_cases c
          · exact this
          · refine this.trans ?_
            simp only [referenceAxes]; simp; abel
          · refine this.trans ?_
            simp only [referenceAxes]; simp; abel
        have hq1 : q ⬝ᵥ Ra.column (referenceAxes c).1 = r 0 := by rw [hq, add_dotProduct, smul_dotProduct, hn1, smul_zero, add_zero, (hproj r).1]
        have hq2 : q ⬝ᵥ Ra.column (referenceAxes c).2 = r 1 := by rw [hq, add_dotProduct, smul_dotProduct, hn2, smul_zero, add_zero, (hproj r).2]
        rw [axesVec_mulVec, ← hqc, ← hq1, ← hq2, ← hex, hq]
        abel
  · cases hsome

theorem faceContacts_length (pa : Vec3) {Ra : Mat3} (Sa : Vec3) (pb : Vec3) {Rb : Mat3} {Sb n : Vec3} {c : Fin 3} (ha : Ra.transpose * Ra = 1)
    (hb : Rb.transpose * Rb = 1) (hSb : ∀ i, 0 < Sb i) {σ : ℝ} (hσ : σ = 1 ∨ σ = -1) (hn : n = σ • Ra.column c) :
    (faceContacts pa Ra Sa pb Rb Sb n c).length ≤ 8 := by
  obtain ⟨L, τ, P, w, x, y, v, hpar, hview, -⟩ := faceContacts_view pa Sa pb Sb n c ha hb hSb hσ hn
  rw [hview]
  exact le_trans (List.length_filterMap_le _ _) (intersectRectQuad_spec _ w x y v hpar).2.2

/-- Boxes that overlap by `ρ` in every direction, and along the normal of the reference face by not much more, have a contact point -/
theorem faceContacts_nonempty (pa : Vec3) {Ra : Mat3} {Sa : Vec3} (pb : Vec3) {Rb : Mat3} {Sb n : Vec3} {c : Fin 3} (ha : Ra.transpose * Ra = 1)
    (hb : Rb.transpose * Rb = 1) (hSa : ∀ i, 0 < Sa i) (hSb : ∀ i, 0 < Sb i) {σ : ℝ} (hσ : σ = 1 ∨ σ = -1) (hn : n = σ • Ra.column c) {ρ : ℝ} (hρ : 0 < ρ)
    (hall : ∀ f, ρ * len3 f ≤ reach Ra.column Sa f + reach Rb.column Sb f - f ⬝ᵥ (pb - pa))
    (hδ : Sa c + reach Rb.column Sb n - n ⬝ᵥ (pb - pa) ≤ 105 / 100 * ρ) : faceContacts pa Ra Sa pb Rb Sb n c ≠ [] := by
  obtain ⟨L, τ, P, w, x, y, v, hpar, hview, hτ, hτn, hbig, hhull, hproj, hface, haff⟩ := faceContacts_view pa Sa pb Sb n c ha hb hSb hσ hn
  have hfa := frame_of_orthogonal ha
  have hfb := frame_of_orthogonal hb
  obtain ⟨-, hne1, hne2, hne12⟩ := dot_frame Ra ha c
  have hnn : n ⬝ᵥ n = 1 := by
    rw [hn, smul_dotProduct, dotProduct_smul, hfa.ortho, if_pos rfl]
    rcases hσ with rfl | rfl <;> norm_num
  set t1 := Ra.column (referenceAxes c).1 with ht1
  set t2 := Ra.column (referenceAxes c).2 with ht2
  have hn1 : n ⬝ᵥ t1 = 0 := by rw [hn, smul_dotProduct, hfa.ortho, if_neg hne1, smul_zero]
  have hn2 : n ⬝ᵥ t2 = 0 := by rw [hn, smul_dotProduct, hfa.ortho, if_neg hne2, smul_zero]
  have habsn : ∀ f : Vec3, |f ⬝ᵥ Ra.column c| = |f ⬝ᵥ n| := by
    intro f
    rw [hn, dotProduct_smul, smul_eq_mul, abs_mul]
    rcases hσ with rfl | rfl <;> simp
  -- the incident face
  let I : Set Vec3 := {X | ∃ y1 y2 : ℝ, |y1| ≤ Sb (referenceAxes L).1 ∧ |y2| ≤ Sb (referenceAxes L).2 ∧ X = pb - pa + Rb *ᵥ axesVec L (-(τ * Sb L)) y1 y2}
  -- the prism below the reference face
  let O : Set Vec3 := {X | |X ⬝ᵥ t1| < Sa (referenceAxes c).1 ∧ |X ⬝ᵥ t2| < Sa (referenceAxes c).2 ∧ X ⬝ᵥ n < Sa c}
  have hmeet : (O ∩ I).Nonempty := by
    by_contra hne
    have hdis : Disjoint O I := Set.disjoint_iff_inter_eq_empty.mpr (Set.not_nonempty_iff_eq_empty.mp hne)
    have hdot : ∀ w : Vec3, Continuous fun g : Vec3 => g ⬝ᵥ w := by
      intro w
      simp only [dotProduct, Fin.sum_univ_three]
      fun_prop
    have hOopen : IsOpen O := by
      refine (isOpen_lt (continuous_abs.comp (hdot t1)) continuous_const).inter
        ((isOpen_lt (continuous_abs.comp (hdot t2)) continuous_const).inter (isOpen_lt (hdot n) continuous_const))
    have habsconv : ∀ (t : Vec3) (b : ℝ), Convex ℝ {X : Vec3 | |X ⬝ᵥ t| < b} := by
      intro t b X hX Y hY s r hs hr hsr
      have hX' : |X ⬝ᵥ t| < b := hX
      have hY' : |Y ⬝ᵥ t| < b := hY
      change |(s • X + r • Y) ⬝ᵥ t| < b
      rw [add_dotProduct, smul_dotProduct, smul_dotProduct, smul_eq_mul, smul_eq_mul]
      rw [abs_lt] at hX' hY' ⊢
      rcases eq_or_lt_of_le hs with h0 | h0
      · have : r = 1 := by linarith
        rw [← h0, this]; constructor <;> linarith
      · constructor
        · nlinarith [mul_lt_mul_of_pos_left hX'.1 h0, mul_le_mul_of_nonneg_left hY'.1.le hr]
        · nlinarith [mul_lt_mul_of_pos_left hX'.2 h0, mul_le_mul_of_nonneg_left hY'.2.le hr]
    have hOconv : Convex ℝ O := by
      refine (habsconv t1 _).inter ((habsconv t2 _).inter ?_)
      intro X hX Y hY s r hs hr hsr
      have hX' : X ⬝ᵥ n < Sa c := hX
      have hY' : Y ⬝ᵥ n < Sa c := hY
      change (s • X + r • Y) ⬝ᵥ n < Sa c
      rw [add_dotProduct, smul_dotProduct, smul_dotProduct, smul_eq_mul, smul_eq_mul]
      rcases eq_or_lt_of_le hs with h0 | h0
      · have : r = 1 := by linarith
        rw [← h0, this]; linarith
      · have h3 : Sa c = s * Sa c + r * Sa c := by rw [← add_mul, hsr, one_mul]
        have h4 := mul_lt_mul_of_pos_left hX' h0
        have h5 := mul_le_mul_of_nonneg_left hY'.le hr
        linarith
    have hIconv : Convex ℝ I := by
      rintro X ⟨a1, a2, h1, h2, rfl⟩ Y ⟨b1, b2, h3, h4, rfl⟩ s r hs hr hsr
      have habs : ∀ u v b : ℝ, |u| ≤ b → |v| ≤ b → |s * u + r * v| ≤ b := by
        intro u v b hu hv
        calc |s * u + r * v| ≤ |s * u| + |r * v| := abs_add_le _ _
          _ = s * |u| + r * |v| := by rw [abs_mul, abs_mul, abs_of_nonneg hs, abs_of_nonneg hr]
          _ ≤ s * b + r * b := add_le_add (mul_le_mul_of_nonneg_left hu hs) (mul_le_mul_of_nonneg_left hv hr)
          _ = b := by rw [← add_mul, hsr, one_mul]
      refine ⟨s * a1 + r * b1, s * a2 + r * b2, habs _ _ _ h1 h3, habs _ _ _ h2 h4, ?_⟩
      rw [axesVec_mulVec, axesVec_mulVec, axesVec_mulVec]
      have hs' : s = 1 - r := by linarith
      rw [hs']
      funext i
      simp only [Pi.add_apply, Pi.smul_apply, smul_eq_mul, Pi.sub_apply]
      ring
    obtain ⟨φ', u0, hφO, hφI⟩ := geometric_hahn_banach_open hOconv hOopen hIconv hdis
    obtain ⟨φ, hφ⟩ := functional_dot φ'
    simp only [hφ] at hφO hφI
    -- the functional on the prism
    have hcorner : ∀ θ : ℝ, 0 ≤ θ → θ < 1 → ∀ k : ℝ, 0 ≤ k → θ * (Sa (referenceAxes c).1 * |φ ⬝ᵥ t1| + Sa (referenceAxes c).2 * |φ ⬝ᵥ t2|) +
        (θ * Sa c - k) * (φ ⬝ᵥ n) < u0 := by
      intro θ hθ hθ1 k hk
      obtain ⟨ε1, he1, hee1⟩ : ∃ ε1 : ℝ, |ε1| = 1 ∧ ε1 * (φ ⬝ᵥ t1) = |φ ⬝ᵥ t1| := by
        rcases le_or_gt 0 (φ ⬝ᵥ t1) with h | h
        · exact ⟨1, abs_one, by rw [abs_of_nonneg h, one_mul]⟩
        · exact ⟨-1, by norm_num, by rw [abs_of_neg h]; ring⟩
      obtain ⟨ε2, he2, hee2⟩ : ∃ ε2 : ℝ, |ε2| = 1 ∧ ε2 * (φ ⬝ᵥ t2) = |φ ⬝ᵥ t2| := by
        rcases le_or_gt 0 (φ ⬝ᵥ t2) with h | h
        · exact ⟨1, abs_one, by rw [abs_of_nonneg h, one_mul]⟩
        · exact ⟨-1, by norm_num, by rw [abs_of_neg h]; ring⟩
      have ht11 : t1 ⬝ᵥ t1 = 1 := by rw [ht1, hfa.ortho, if_pos rfl]
      have ht22 : t2 ⬝ᵥ t2 = 1 := by rw [ht2, hfa.ortho, if_pos rfl]
      have ht12 : t1 ⬝ᵥ t2 = 0 := by rw [ht1, ht2, hfa.ortho, if_neg hne12]
      have ht21 : t2 ⬝ᵥ t1 = 0 := by rw [dotProduct_comm, ht12]
      have h := hφO ((θ * Sa (referenceAxes c).1 * ε1) • t1 + (θ * Sa (referenceAxes c).2 * ε2) • t2 + (θ * Sa c - k) • n) (by
        have ht1n : t1 ⬝ᵥ n = 0 := by rw [dotProduct_comm, hn1]
        have ht2n : t2 ⬝ᵥ n = 0 := by rw [dotProduct_comm, hn2]
        refine ⟨?_, ?_, ?_⟩
        · rw [add_dotProduct, add_dotProduct, smul_dotProduct, smul_dotProduct, smul_dotProduct, ht11, ht21, hn1, smul_zero, smul_zero, add_zero, add_zero,
            smul_eq_mul, mul_one, abs_mul, he1, mul_one, abs_of_nonneg (mul_nonneg hθ (hSa _).le)]
          nlinarith [hSa (referenceAxes c).1]
        · rw [add_dotProduct, add_dotProduct, smul_dotProduct, smul_dotProduct, smul_dotProduct, ht12, ht22, hn2, smul_zero, smul_zero, add_zero, zero_add,
            smul_eq_mul, mul_one, abs_mul, he2, mul_one, abs_of_nonneg (mul_nonneg hθ (hSa _).le)]
          nlinarith [hSa (referenceAxes c).2]
        · rw [add_dotProduct, add_dotProduct, smul_dotProduct, smul_dotProduct, smul_dotProduct, ht1n, ht2n, hnn, smul_zero, smul_zero, zero_add, zero_add,
            smul_eq_mul, mul_one]
          nlinarith [hSa c])
      rw [dotProduct_add, dotProduct_add, dotProduct_smul, dotProduct_smul, dotProduct_smul, smul_eq_mul, smul_eq_mul, smul_eq_mul] at h
      rw [← hee1, ← hee2]
      linarith
    have hφn : 0 ≤ φ ⬝ᵥ n := by
      by_contra hneg
      rw [not_le] at hneg
      have h0 := hcorner 0 (le_refl _) one_pos (|u0| / (-(φ ⬝ᵥ n))) (div_nonneg (abs_nonneg _) (by linarith))
      have h1 : |u0| / (-(φ ⬝ᵥ n)) * (φ ⬝ᵥ n) = -|u0| := by
        rw [div_mul_eq_mul_div, div_eq_iff (by linarith)]; ring
      have h2 := le_abs_self u0
      nlinarith
    have hreach : reach Ra.column Sa φ ≤ u0 := by
      rw [reach_axes _ _ _ c, habsn, abs_of_nonneg hφn]
      set H := Sa c * (φ ⬝ᵥ n) + Sa (referenceAxes c).1 * |φ ⬝ᵥ Ra.column (referenceAxes c).1| + Sa (referenceAxes c).2 * |φ ⬝ᵥ Ra.column (referenceAxes c).2| with hH
      have hθ : ∀ θ : ℝ, 0 ≤ θ → θ < 1 → θ * H < u0 := by
        intro θ h0 h1
        have := hcorner θ h0 h1 0 (le_refl _)
        rw [hH]
        linarith
      have hH0 : 0 ≤ H := by
        have := (hSa c).le
        have := (hSa (referenceAxes c).1).le
        have := (hSa (referenceAxes c).2).le
        positivity
      have hu0 := hθ 0 (le_refl _) one_pos
      rw [zero_mul] at hu0
      by_contra hc
      rw [not_le] at hc
      have := hθ (u0 / H) (div_nonneg hu0.le hH0) ((div_lt_one (by linarith)).mpr hc)
      rw [div_mul_cancel₀ _ (by linarith)] at this
      exact lt_irrefl _ this
    -- the least value on the incident face
    have hmin : ∀ f : Vec3, ∃ X ∈ I, f ⬝ᵥ X = f ⬝ᵥ (pb - pa) - τ * Sb L * (f ⬝ᵥ Rb.column L) - Sb (referenceAxes L).1 * |f ⬝ᵥ Rb.column (referenceAxes L).1| -
        Sb (referenceAxes L).2 * |f ⬝ᵥ Rb.column (referenceAxes L).2| := by
      intro f
      have hs : ∀ b w : ℝ, 0 < b → ∃ y, |y| ≤ b ∧ y * w = -(b * |w|) := by
        intro b w hb
        rcases le_or_gt 0 w with h | h
        · exact ⟨-b, by rw [abs_neg, abs_of_pos hb], by rw [abs_of_nonneg h]; ring⟩
        · exact ⟨b, by rw [abs_of_pos hb], by rw [abs_of_neg h]; ring⟩
      obtain ⟨y1, h1, h1'⟩ := hs _ (f ⬝ᵥ Rb.column (referenceAxes L).1) (hSb (referenceAxes L).1)
      obtain ⟨y2, h2, h2'⟩ := hs _ (f ⬝ᵥ Rb.column (referenceAxes L).2) (hSb (referenceAxes L).2)
      refine ⟨_, ⟨y1, y2, h1, h2, rfl⟩, ?_⟩
      rw [dotProduct_add, axesVec_mulVec, dotProduct_add, dotProduct_add, dotProduct_smul, dotProduct_smul, dotProduct_smul, smul_eq_mul, smul_eq_mul, smul_eq_mul, h1', h2']
      ring
    have hφne : φ ≠ 0 := by
      intro h0
      obtain ⟨X, hX, -⟩ := hmin 0
      have h1 := hφI X hX
      have h2 := hcorner 0 (le_refl _) one_pos 0 (le_refl _)
      rw [h0] at h1 h2
      simp at h1 h2
      linarith
    have hlenpos : ∀ f : Vec3, f ≠ 0 → 0 < len3 f := by
      intro f hf
      rcases eq_or_lt_of_le (len3_nonneg f) with h | h
      · have h1 := len3_sq f
        rw [← h] at h1
        exact absurd (dotProduct_self_eq_zero.mp (by linarith)) hf
      · exact h
    rcases le_or_gt 0 (τ * (φ ⬝ᵥ Rb.column L)) with hm | hm
    · -- the incident face is where the other box is lowest
      obtain ⟨X, hX, hfX⟩ := hmin φ
      have h1 := hφI X hX
      have h2 := hall φ
      have h3 : τ * (φ ⬝ᵥ Rb.column L) = |φ ⬝ᵥ Rb.column L| := by
        rw [← abs_of_nonneg hm, abs_mul]
        rcases hτ with rfl | rfl <;> simp
      rw [reach_axes Rb.column _ _ L] at h2
      have h4 := mul_pos hρ (hlenpos φ hφne)
      have h5 : τ * Sb L * (φ ⬝ᵥ Rb.column L) = Sb L * |φ ⬝ᵥ Rb.column L| := by rw [← h3]; ring
      linarith
    · set κ := τ * (n ⬝ᵥ Rb.column L) with hκ
      have hκpos : 0 < κ := by
        rw [hτn]
        refine abs_pos.mpr fun h0 => ?_
        rw [h0] at hbig; norm_num at hbig
      have hκsq : 1 ≤ 3 * κ ^ 2 := by rw [hτn, sq_abs]; exact hbig
      set lam := -(τ * (φ ⬝ᵥ Rb.column L)) / κ with hlam
      have hlampos : 0 < lam := div_pos (by linarith) hκpos
      set ψ := φ + lam • n with hψ
      have hψL : ψ ⬝ᵥ Rb.column L = 0 := by
        have h1 : τ * (ψ ⬝ᵥ Rb.column L) = 0 := by
          rw [hψ, add_dotProduct, smul_dotProduct, smul_eq_mul, mul_add, mul_left_comm, ← hκ, hlam, div_mul_cancel₀ _ hκpos.ne']; ring
        rcases mul_eq_zero.mp h1 with h | h
        · rcases hτ with rfl | rfl <;> norm_num at h
        · exact h
      obtain ⟨X, hX, hfX⟩ := hmin ψ
      have h1 := hφI X hX
      have h2 := hall ψ
      rw [reach_axes Rb.column _ _ L, hψL, abs_zero, mul_zero] at h2
      rw [hψL, mul_zero, sub_zero] at hfX
      have hXb : X + pa ∈ boxSet3 pb Rb Sb := by
        obtain ⟨y1, y2, hy1, hy2, rfl⟩ := hX
        refine ⟨axesVec L (-(τ * Sb L)) y1 y2, axesVec_le ?_ hy1 hy2, by abel⟩
        rw [abs_neg, abs_mul, abs_of_pos (hSb L)]
        rcases hτ with rfl | rfl <;> simp
      have h3 := dot_ge_reach hXb n
      rw [dotProduct_add] at h3
      rw [dotProduct_sub] at hδ
      have hψn : ψ ⬝ᵥ n = φ ⬝ᵥ n + lam := by rw [hψ, add_dotProduct, smul_dotProduct, hnn, smul_eq_mul, mul_one]
      have hreachψ : reach Ra.column Sa ψ = reach Ra.column Sa φ + Sa c * lam := by
        rw [reach_axes _ _ _ c, reach_axes Ra.column Sa φ c, habsn, habsn, hψn, abs_of_nonneg hφn, abs_of_nonneg (by linarith)]
        have e1 : ψ ⬝ᵥ Ra.column (referenceAxes c).1 = φ ⬝ᵥ Ra.column (referenceAxes c).1 := by
          rw [hψ, add_dotProduct, smul_dotProduct, ← ht1, hn1, smul_zero, add_zero]
        have e2 : ψ ⬝ᵥ Ra.column (referenceAxes c).2 = φ ⬝ᵥ Ra.column (referenceAxes c).2 := by
          rw [hψ, add_dotProduct, smul_dotProduct, ← ht2, hn2, smul_zero, add_zero]
        rw [e1, e2]; ring
      have hψX : ψ ⬝ᵥ X = φ ⬝ᵥ X + lam * (n ⬝ᵥ X) := by rw [hψ, add_dotProduct, smul_dotProduct, smul_eq_mul]
      have h4 : ρ * len3 ψ ≤ lam * (105 / 100 * ρ) := by
        have h5 : lam * (Sa c + reach Rb.column Sb n - (n ⬝ᵥ pb - n ⬝ᵥ pa)) ≤ lam * (105 / 100 * ρ) := mul_le_mul_of_nonneg_left hδ hlampos.le
        have h6 : lam * (n ⬝ᵥ pb - reach Rb.column Sb n - n ⬝ᵥ pa) ≤ lam * (n ⬝ᵥ X) := mul_le_mul_of_nonneg_left (by linarith) hlampos.le
        have h7 : lam * (Sa c + reach Rb.column Sb n - (n ⬝ᵥ pb - n ⬝ᵥ pa)) + lam * (n ⬝ᵥ pb - reach Rb.column Sb n - n ⬝ᵥ pa) = lam * Sa c := by ring
        linarith
      have h5 : len3 ψ ≤ 105 / 100 * lam := by
        have : ρ * len3 ψ ≤ ρ * (105 / 100 * lam) := by linarith
        exact le_of_mul_le_mul_left this hρ
      -- `ψ` is orthogonal to the normal of the incident face, which is close to `n`
      set d := n - (n ⬝ᵥ Rb.column L) • Rb.column L with hd
      have hdd : d ⬝ᵥ d = 1 - κ ^ 2 := by
        have hbb : Rb.column L ⬝ᵥ Rb.column L = 1 := by rw [hfb.ortho, if_pos rfl]
        have hκ2 : κ ^ 2 = (n ⬝ᵥ Rb.column L) ^ 2 := by rw [hτn, sq_abs]
        rw [hκ2, hd, sub_dotProduct, dotProduct_sub, dotProduct_sub, hnn, smul_dotProduct, smul_dotProduct, dotProduct_smul, dotProduct_smul, hbb,
          dotProduct_comm (Rb.column L) n, smul_eq_mul, smul_eq_mul, smul_eq_mul]
        ring
      have h6 : lam ≤ len3 ψ * len3 d := by
        have h7 : ψ ⬝ᵥ d = ψ ⬝ᵥ n := by rw [hd, dotProduct_sub, dotProduct_smul, hψL, smul_zero, sub_zero]
        have h8 := dot_le_len ψ d
        rw [h7, hψn] at h8
        linarith
      have h7 : len3 d ^ 2 ≤ 2 / 3 := by rw [len3_sq, hdd]; linarith
      have h8 : lam ^ 2 ≤ (len3 ψ) ^ 2 * (len3 d) ^ 2 := by
        rw [← mul_pow]; exact pow_le_pow_left₀ hlampos.le h6 2
      have h9 : (len3 ψ) ^ 2 ≤ (105 / 100 * lam) ^ 2 := pow_le_pow_left₀ (len3_nonneg _) h5 2
      have h10 : (len3 ψ) ^ 2 * (len3 d) ^ 2 ≤ (105 / 100 * lam) ^ 2 * (2 / 3) := mul_le_mul h9 h7 (sq_nonneg _) (sq_nonneg _)
      nlinarith [sq_nonneg lam, mul_pos hlampos hlampos]
  -- a vertex of the clipped face is below the reference face
  obtain ⟨X, ⟨hX1, hX2, hX3⟩, y1, y2, hy1, hy2, hXeq⟩ := hmeet
  obtain ⟨r, hr, hPr⟩ := hface y1 y2 hy1 hy2
  rw [← hXeq] at hPr
  have hrin : r ∈ convexHull ℝ {p | p ∈ intersectRectQuad ![Sa (referenceAxes c).1, Sa (referenceAxes c).2] [w, x, y, v]} := by
    refine (intersectRectQuad_spec _ w x y v hpar).2.1 r hr fun k => ?_
    obtain ⟨hp1, hp2⟩ := hproj r
    rw [hPr] at hp1 hp2
    fin_cases k
    · change |r 0| < Sa (referenceAxes c).1
      rw [← hp1]; exact hX1
    · change |r 1| < Sa (referenceAxes c).2
      rw [← hp2]; exact hX2
  intro hempty
  rw [hview] at hempty
  have hnone : ∀ r' ∈ intersectRectQuad ![Sa (referenceAxes c).1, Sa (referenceAxes c).2] [w, x, y, v], Sa c - n ⬝ᵥ P r' < 0 := by
    intro r' hr'
    by_contra hc
    rw [not_lt] at hc
    have := List.filterMap_eq_nil_iff.mp hempty r' hr'
    rw [if_pos hc] at this
    cases this
  have hconv : Convex ℝ {r : Pt2 | Sa c - n ⬝ᵥ P r < 0} := by
    intro a ha' b hb' s t hs ht hst
    have h1 : Sa c - n ⬝ᵥ P a < 0 := ha'
    have h2 : Sa c - n ⬝ᵥ P b < 0 := hb'
    change Sa c - n ⬝ᵥ P (s • a + t • b) < 0
    rw [haff s t a b hst, dotProduct_add, dotProduct_smul, dotProduct_smul, smul_eq_mul, smul_eq_mul]
    have h3 : Sa c = s * Sa c + t * Sa c := by rw [← add_mul, hst, one_mul]
    rcases eq_or_lt_of_le hs with h0 | h0
    · have : t = 1 := by linarith
      rw [← h0, this]; linarith
    · nlinarith [mul_lt_mul_of_pos_left h1 h0, mul_le_mul_of_nonneg_left h2.le ht]
  have h1 : Sa c - n ⬝ᵥ P r < 0 := convexHull_min (fun r' hr' => hnone r' hr') hconv hrin
  rw [hPr, dotProduct_comm] at h1
  linarith

end Scisim
