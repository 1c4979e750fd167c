import Verif.Lemmas.BoxBeams3D

/-!
# C73: two boxes in space

`boxBoxIsActive3 cm0 R0 w0 cm1 R1 w1 n0` is what the test of two boxes gives: the normal, which points from the second box to the first, and the contact points.
`w0` and `w1` are the half widths, `R0` and `R1` the orientations (orthogonal matrices). The sets of points are those of Spec/Geometry3D.lean and
Spec/BoxBox3D.lean.
-/

namespace Scisim

open Matrix Topology

/-- **C73, no false contacts.** When a point is reported the boxes share a point. -/
theorem C73_sound (cm0 cm1 w0 w1 n0 : Vec3) (R0 R1 : Mat3) (hR0 : R0.transpose * R0 = 1) (hR1 : R1.transpose * R1 = 1) (hw0 : ∀ i, 0 < w0 i)
    (hw1 : ∀ i, 0 < w1 i) (h : (boxBoxIsActive3 cm0 R0 w0 cm1 R1 w1 n0).2 ≠ []) : (boxSet3 cm0 R0 w0 ∩ boxSet3 cm1 R1 w1).Nonempty := by
  obtain ⟨st, hst⟩ := BoxPair.points_some h
  obtain ⟨x, ht⟩ := separatingAxes3_some hR0 hR1 hst
  have := BoxPair.share_of_tested hR0 hR1 (fun i => (hw0 i).le) (fun i => (hw1 i).le) ht 0 (by
    have h0 : len3 0 = 0 := by simp [len3]
    rw [h0]; exact div_nonneg ht.nonneg (by norm_num))
  rwa [add_zero] at this

/-- **C73, no contact is missed.** When the boxes share a point that is not on the surface of either, a point is reported. -/
theorem C73_complete (cm0 cm1 w0 w1 n0 : Vec3) (R0 R1 : Mat3) (hR0 : R0.transpose * R0 = 1) (hR1 : R1.transpose * R1 = 1) (hw0 : ∀ i, 0 < w0 i)
    (hw1 : ∀ i, 0 < w1 i) (h : (boxInterior3 cm0 R0 w0 ∩ boxInterior3 cm1 R1 w1).Nonempty) : (boxBoxIsActive3 cm0 R0 w0 cm1 R1 w1 n0).2 ≠ [] := by
  have hsub : ∀ (p : Vec3) (R : Mat3) (w : Vec3), boxInterior3 p R w ⊆ boxSet3 p R w := by
    rintro p R w z ⟨a, ha, rfl⟩
    exact ⟨a, fun i => (ha i).le, rfl⟩
  cases hst : separatingAxes3 cm0 R0 w0 cm1 R1 w1 with
  | none => exact absurd (h.mono (Set.inter_subset_inter (hsub _ _ _) (hsub _ _ _))) (BoxPair.disjoint_of_none hR0 hR1 hst)
  | some st =>
    obtain ⟨x, ht, -, hcase⟩ := BoxPair.active_some (n0 := n0) hR0 hR1 hst
    obtain ⟨hnn, -, hx, -⟩ := satNormal3_spec hR0 hR1 ht
    have hxpos : 0 < x := by
      rw [hx]
      refine BoxPair.interior_overlap hR0 hR1 h fun h0 => ?_
      rw [h0, zero_dotProduct] at hnn
      norm_num at hnn
    have hdir := ht.directions hR0 hR1
    have hρ : 0 < x / (105 / 100) := by positivity
    rcases hcase with ⟨-, hp⟩ | ⟨c, σ, hσ, hn, hp, hδ⟩ | ⟨c, σ, hσ, hn, hp, hδ⟩
    · rw [hp]; simp
    · rw [hp]
      exact faceContacts_nonempty cm0 cm1 hR0 hR1 hw0 hw1 hσ hn hρ hdir (by rw [hδ]; linarith [mul_div_cancel₀ x (show (105 / 100 : ℝ) ≠ 0 by norm_num)])
    · rw [hp]
      refine faceContacts_nonempty cm1 cm0 hR1 hR0 hw1 hw0 hσ hn hρ (fun f => ?_) (by rw [hδ]; linarith [mul_div_cancel₀ x (show (105 / 100 : ℝ) ≠ 0 by norm_num)])
      have h3 := hdir (-f)
      have h4 : len3 (-f) = len3 f := by rw [← neg_one_smul ℝ f, len3_smul]; simp
      rw [h4, reach_neg, reach_neg, neg_dotProduct, dotProduct_sub] at h3
      rw [dotProduct_sub]
      linarith

/-- **C73, how many points.** At most eight points are reported. -/
theorem C73_count (cm0 cm1 w0 w1 n0 : Vec3) (R0 R1 : Mat3) (hR0 : R0.transpose * R0 = 1) (hR1 : R1.transpose * R1 = 1) (hw0 : ∀ i, 0 < w0 i)
    (hw1 : ∀ i, 0 < w1 i) : (boxBoxIsActive3 cm0 R0 w0 cm1 R1 w1 n0).2.length ≤ 8 := by
  cases hst : separatingAxes3 cm0 R0 w0 cm1 R1 w1 with
  | none => rw [BoxPair.active_none hst]; simp
  | some st =>
    obtain ⟨x, ht, -, hcase⟩ := BoxPair.active_some (n0 := n0) hR0 hR1 hst
    rcases hcase with ⟨-, hp⟩ | ⟨c, σ, hσ, hn, hp, -⟩ | ⟨c, σ, hσ, hn, hp, -⟩
    · rw [hp]; simp
    · rw [hp]; exact faceContacts_length cm0 w0 cm1 hR0 hR1 hw1 hσ hn
    · rw [hp]; exact faceContacts_length cm1 w1 cm0 hR1 hR0 hw0 hσ hn

/-- **C73, the normal.** The normal has length one and points from the second box towards the first. Moved along it by more than the overlap `D` the first box is
clear of the second, and no motion that is shorter than `D` by a factor of 1.05 clears it: the overlap along the normal is the penetration depth up to five percent. -/
theorem C73_normal (cm0 cm1 w0 w1 n0 : Vec3) (R0 R1 : Mat3) (hR0 : R0.transpose * R0 = 1) (hR1 : R1.transpose * R1 = 1) (hw0 : ∀ i, 0 < w0 i)
    (hw1 : ∀ i, 0 < w1 i) {n : Vec3} {points : List Vec3} (h : boxBoxIsActive3 cm0 R0 w0 cm1 R1 w1 n0 = (n, points)) (hp : points ≠ []) :
    n ⬝ᵥ n = 1 ∧ 0 ≤ n ⬝ᵥ (cm0 - cm1) ∧ ∃ D, IsOverlap3 n (boxSet3 cm0 R0 w0) (boxSet3 cm1 R1 w1) D ∧ 0 ≤ D ∧
      (∀ t, D < t → moved3 (t • n) (boxSet3 cm0 R0 w0) ∩ boxSet3 cm1 R1 w1 = ∅) ∧
      ∀ t : Vec3, t ⬝ᵥ t ≤ (D / (105 / 100)) ^ 2 → (moved3 t (boxSet3 cm0 R0 w0) ∩ boxSet3 cm1 R1 w1).Nonempty := by
  have hw0' : ∀ i, 0 ≤ w0 i := fun i => (hw0 i).le
  have hw1' : ∀ i, 0 ≤ w1 i := fun i => (hw1 i).le
  obtain ⟨st, hst⟩ := BoxPair.points_some (n0 := n0) (by rw [h]; exact hp)
  obtain ⟨x, ht, hn, -⟩ := BoxPair.active_some (n0 := n0) hR0 hR1 hst
  rw [h] at hn
  dsimp only at hn
  obtain ⟨hnn, hnp, hx, -⟩ := satNormal3_spec hR0 hR1 ht
  have hov := BoxPair.overlap_of_tested hR0 hR1 hw0' hw1' ht
  rw [← hn] at hov
  have hn1 : n ⬝ᵥ n = 1 := by rw [hn, neg_one_smul, neg_dotProduct, dotProduct_neg, neg_neg, hnn]
  refine ⟨hn1, ?_, x, hov, ht.nonneg, ?_, ?_⟩
  · rw [hn, neg_one_smul, neg_dotProduct, dotProduct_sub]
    rw [dotProduct_sub] at hnp
    linarith
  · intro t hlt
    rw [Set.eq_empty_iff_forall_notMem]
    rintro z ⟨hz, hz'⟩
    have h3 := hov.1 _ hz _ hz'
    rw [sub_sub_cancel, dotProduct_smul, hn1, smul_eq_mul, mul_one] at h3
    linarith
  · intro t hlen
    rw [BoxPair.moved_share]
    refine BoxPair.share_of_tested hR0 hR1 hw0' hw1' ht (-t) ?_
    rw [len3_eq_sqrt, neg_dotProduct, dotProduct_neg, neg_neg]
    exact Real.sqrt_le_iff.mpr ⟨div_nonneg ht.nonneg (by norm_num), hlen⟩

/-- **C73, the contact points of a face.** When the normal is that of a face of one of the boxes, every point lies in the other box, and moving it along the normal by
at most the overlap `D` brings it into the box with the face. -/
theorem C73_face (cm0 cm1 w0 w1 n0 : Vec3) (R0 R1 : Mat3) (hR0 : R0.transpose * R0 = 1) (hR1 : R1.transpose * R1 = 1) (hw0 : ∀ i, 0 < w0 i)
    (hw1 : ∀ i, 0 < w1 i) {n : Vec3} {points : List Vec3} (h : boxBoxIsActive3 cm0 R0 w0 cm1 R1 w1 n0 = (n, points))
    (hface : IsFaceNormal R0 n ∨ IsFaceNormal R1 n) {D : ℝ} (hD : IsOverlap3 n (boxSet3 cm0 R0 w0) (boxSet3 cm1 R1 w1) D) :
    (∀ z ∈ points, z ∈ boxSet3 cm1 R1 w1 ∧ ∃ t, 0 ≤ t ∧ t ≤ D ∧ z - t • n ∈ boxSet3 cm0 R0 w0) ∨
    (∀ z ∈ points, z ∈ boxSet3 cm0 R0 w0 ∧ ∃ t, 0 ≤ t ∧ t ≤ D ∧ z + t • n ∈ boxSet3 cm1 R1 w1) := by
  have hpts : (boxBoxIsActive3 cm0 R0 w0 cm1 R1 w1 n0).2 = points := by rw [h]
  cases hst : separatingAxes3 cm0 R0 w0 cm1 R1 w1 with
  | none =>
    rw [BoxPair.active_none hst] at hpts
    left
    rw [← hpts]; simp
  | some st =>
    obtain ⟨x, ht, hn, hcase⟩ := BoxPair.active_some (n0 := n0) hR0 hR1 hst
    have hov := BoxPair.overlap_of_tested hR0 hR1 (fun i => (hw0 i).le) (fun i => (hw1 i).le) ht
    rw [← hn, h] at hov
    have hDx := BoxPair.overlap_unique hD hov
    rw [h] at hn
    dsimp only at hn
    rcases hcase with ⟨h7, -⟩ | ⟨c, σ, hσ, hnc, hp, hδ⟩ | ⟨c, σ, hσ, hnc, hp, hδ⟩
    · exfalso
      rcases hface with ⟨i, hi⟩ | ⟨i, hi⟩
      · have hax : axisOf R0 R1 (1 + i.val) = R0.column i := by fin_cases i <;> rfl
        rcases hi with hi | hi
        · refine edge_not_face hR0 hR1 ht h7 (c := 1 + i.val) (by omega) (by omega) (k := -1) ?_
          rw [hax, show R0.column i = n from hi.symm, hn, smul_smul]; simp
        · refine edge_not_face hR0 hR1 ht h7 (c := 1 + i.val) (by omega) (by omega) (k := 1) ?_
          rw [hax, show R0.column i = -n from by rw [hi]; funext k; simp [Mat3.column], hn]; simp
      · have hax : axisOf R0 R1 (4 + i.val) = R1.column i := by fin_cases i <;> rfl
        rcases hi with hi | hi
        · refine edge_not_face hR0 hR1 ht h7 (c := 4 + i.val) (by omega) (by omega) (k := -1) ?_
          rw [hax, show R1.column i = n from hi.symm, hn, smul_smul]; simp
        · refine edge_not_face hR0 hR1 ht h7 (c := 4 + i.val) (by omega) (by omega) (k := 1) ?_
          rw [hax, show R1.column i = -n from by rw [hi]; funext k; simp [Mat3.column], hn]; simp
    · left
      intro z hz
      rw [← hpts, hp] at hz
      obtain ⟨hz1, t, ht0, htD, hz2⟩ := faceContacts_mem cm0 cm1 hR0 hR1 hw0 hw1 hσ hnc hz
      refine ⟨hz1, t, ht0, by rw [hDx, ← hδ]; exact htD, ?_⟩
      rw [hn, neg_one_smul, smul_neg, sub_neg_eq_add]
      exact hz2
    · right
      intro z hz
      rw [← hpts, hp] at hz
      obtain ⟨hz1, t, ht0, htD, hz2⟩ := faceContacts_mem cm1 cm0 hR1 hR0 hw1 hw0 hσ hnc hz
      refine ⟨hz1, t, ht0, by rw [hDx, ← hδ]; exact htD, ?_⟩
      rw [hn, neg_one_smul]
      exact hz2

/-- **C73, the contact point of two edges, partial.** When the normal is not that of a face, one point is reported. If no motion shorter than the overlap `D` along the
normal clears the boxes, and the two edges at right angles to the normal are not nearly parallel, it is half way between a point of the first box and a point of the
second that are `D` apart along the normal. Not covered: an overlap that the bias towards the axes tested first has left above the least one by up to five percent, and
edges whose directions differ by less than the square root of 1/10000, for which the program takes the corners instead of the points of closest approach. -/
theorem C73_edge_partial (cm0 cm1 w0 w1 n0 : Vec3) (R0 R1 : Mat3) (hR0 : R0.transpose * R0 = 1) (hR1 : R1.transpose * R1 = 1) (hw0 : ∀ i, 0 < w0 i)
    (hw1 : ∀ i, 0 < w1 i) {n : Vec3} {points : List Vec3} (h : boxBoxIsActive3 cm0 R0 w0 cm1 R1 w1 n0 = (n, points)) (hp : points ≠ [])
    (hface : ¬ IsFaceNormal R0 n) (hface' : ¬ IsFaceNormal R1 n) {D : ℝ} (hD : IsOverlap3 n (boxSet3 cm0 R0 w0) (boxSet3 cm1 R1 w1) D)
    (hmin : ∀ t : Vec3, t ⬝ᵥ t < D ^ 2 → (moved3 t (boxSet3 cm0 R0 w0) ∩ boxSet3 cm1 R1 w1).Nonempty)
    (hpar : ∀ i j, (∑ k, n k * R0 k i) = 0 → (∑ k, n k * R1 k j) = 0 → (∑ k, R0 k i * R1 k j) ^ 2 < 1 - 1 / 10000) :
    ∃ z ∈ boxSet3 cm0 R0 w0, z + D • n ∈ boxSet3 cm1 R1 w1 ∧ points = [z + (D / 2) • n] := by
  have hw0' : ∀ i, 0 ≤ w0 i := fun i => (hw0 i).le
  have hw1' : ∀ i, 0 ≤ w1 i := fun i => (hw1 i).le
  have hpts : (boxBoxIsActive3 cm0 R0 w0 cm1 R1 w1 n0).2 = points := by rw [h]
  obtain ⟨st, hst⟩ := BoxPair.points_some (n0 := n0) (by rw [h]; exact hp)
  obtain ⟨x, ht, hn, hcase⟩ := BoxPair.active_some (n0 := n0) hR0 hR1 hst
  have hov := BoxPair.overlap_of_tested hR0 hR1 hw0' hw1' ht
  rw [← hn, h] at hov
  have hDx := BoxPair.overlap_unique hD hov
  rw [h] at hn
  dsimp only at hn
  rcases hcase with ⟨h7, hpt⟩ | ⟨c, σ, hσ, hnc, -, -⟩ | ⟨c, σ, hσ, hnc, -, -⟩
  · obtain ⟨z, hz, hz', hzp⟩ := edgeContact_spec hR0 hR1 hw0' hw1' ht h7 (by
      intro f
      by_contra hc
      rw [not_le] at hc
      -- a motion along `f` a little shorter than `D` clears the boxes
      have hlen := len3_nonneg f
      rcases eq_or_lt_of_le hlen with h0 | hlpos
      · have hf0 : f = 0 := dotProduct_self_eq_zero.mp (by rw [← len3_sq, ← h0]; norm_num)
        rw [hf0] at hc
        simp [reach, len3] at hc
      set y := reach R0.column w0 f + reach R1.column w1 f - f ⬝ᵥ (cm1 - cm0) with hy
      have hy0 : 0 ≤ y := by
        have := ht.directions hR0 hR1 f
        exact le_trans (mul_nonneg (div_nonneg ht.nonneg (by norm_num)) hlen) this
      obtain ⟨q, hq1, hq2⟩ := exists_between ((div_lt_iff₀ hlpos).mpr hc)
      have hq0 : 0 ≤ q := le_trans (div_nonneg hy0 hlen) hq1.le
      have hmot := hmin (-(q / len3 f) • f) (by
        rw [smul_dotProduct, dotProduct_smul, ← len3_sq, smul_eq_mul, smul_eq_mul, hDx]
        have : -(q / len3 f) * (-(q / len3 f) * len3 f ^ 2) = q ^ 2 := by field_simp
        rw [this]
        exact pow_lt_pow_left₀ hq2 hq0 two_ne_zero)
      obtain ⟨v, hv, hv'⟩ := hmot
      have e1 := dot_le_reach (show v - -(q / len3 f) • f ∈ boxSet3 cm0 R0 w0 from hv) f
      have e2 := dot_ge_reach hv' f
      rw [neg_smul, sub_neg_eq_add, dotProduct_add, dotProduct_smul, ← len3_sq, smul_eq_mul] at e1
      have e3 : q / len3 f * len3 f ^ 2 = q * len3 f := by field_simp
      rw [e3] at e1
      rw [dotProduct_sub] at hy
      have e4 := (div_lt_iff₀ hlpos).mp hq1
      linarith) (by
      intro i j hi hj
      have e1 : n ⬝ᵥ R0.column i = 0 := by rw [hn, smul_dotProduct, hi, smul_zero]
      have e2 : n ⬝ᵥ R1.column j = 0 := by rw [hn, smul_dotProduct, hj, smul_zero]
      have := hpar i j e1 e2
      have e3 : (∑ k, R0 k i * R1 k j) = R0.column i ⬝ᵥ R1.column j := rfl
      rw [e3] at this
      nlinarith)
    refine ⟨z, hz, ?_, ?_⟩
    · rw [hn, hDx, neg_one_smul, smul_neg, ← sub_eq_add_neg]; exact hz'
    · rw [← hpts, hpt, hzp, hn, hDx, neg_one_smul, smul_neg, ← sub_eq_add_neg]
  · exfalso
    apply hface
    refine ⟨c, ?_⟩
    rw [hn, hnc]
    rcases hσ with rfl | rfl
    · right; funext k; simp [Mat3.column]
    · left; funext k; simp [Mat3.column]
  · exfalso
    apply hface'
    refine ⟨c, ?_⟩
    rw [hn, neg_one_smul, hnc]
    rcases hσ with rfl | rfl
    · left; funext k; simp [Mat3.column]
    · right; funext k; simp [Mat3.column]

/-! ### Cases that meet the hypotheses -/

/-- Two cubes, the second one turned, that overlap: a point is reported -/
example (n0 : Vec3) : (boxBoxIsActive3 0 rollA ![1, 1, 1] ![1, 0, 0] (rollB 0 1) ![1, 1, 1] n0).2 ≠ [] := by
  refine C73_complete _ _ _ _ _ _ _ rollA_orth (rollB_orth (by norm_num)) (fun i => by fin_cases i <;> simp) (fun i => by fin_cases i <;> simp) ?_
  refine ⟨![1 / 2, 0, 0], ⟨![1 / 2, 0, 0], fun i => by fin_cases i <;> simp; norm_num [abs_lt], ?_⟩,
    ⟨![0, 3 / 10, -4 / 10], fun i => by fin_cases i <;> simp <;> norm_num [abs_lt], ?_⟩⟩
  · funext i
    fin_cases i <;> simp [rollA, Matrix.vecHead]
  · funext i
    fin_cases i <;> simp [rollB, Matrix.vecHead, Matrix.vecTail] <;> norm_num

/-- Two cubes side by side meet the hypotheses of `C73_face`, with a point reported -/
example (n0 : Vec3) : ∃ n points D, boxBoxIsActive3 0 1 ![1, 1, 1] ![3 / 2, 0, 0] 1 ![1, 1, 1] n0 = (n, points) ∧ points ≠ [] ∧ IsFaceNormal 1 n ∧
    IsOverlap3 n (boxSet3 0 1 ![1, 1, 1]) (boxSet3 ![3 / 2, 0, 0] 1 ![1, 1, 1]) D := by
  have h1 : (1 : Mat3).transpose * 1 = 1 := by simp
  have hw : ∀ i : Fin 3, 0 < (![1, 1, 1] : Vec3) i := fun i => by fin_cases i <;> simp
  have hne : (boxBoxIsActive3 0 1 ![1, 1, 1] ![3 / 2, 0, 0] 1 ![1, 1, 1] n0).2 ≠ [] := by
    refine C73_complete _ _ _ _ _ _ _ h1 h1 hw hw ⟨![3 / 4, 0, 0], ⟨![3 / 4, 0, 0], fun i => ?_, by simp⟩, ⟨![-3 / 4, 0, 0], fun i => ?_, ?_⟩⟩
    · fin_cases i <;> simp
      norm_num [abs_lt]
    · fin_cases i <;> simp
      norm_num [abs_lt]
    · funext i
      fin_cases i <;> simp
      norm_num
  obtain ⟨st, hst⟩ := BoxPair.points_some hne
  obtain ⟨x, ht, hn, hcase⟩ := BoxPair.active_some (n0 := n0) h1 h1 hst
  have hov := BoxPair.overlap_of_tested h1 h1 (fun i => (hw i).le) (fun i => (hw i).le) ht
  refine ⟨(-1 : ℝ) • satNormal3 1 1 st, _, x, Prod.ext hn rfl, hne, ?_, hov⟩
  rcases hcase with ⟨h7, -⟩ | ⟨c, σ, hσ, hnc, -⟩ | ⟨c, σ, hσ, hnc, -⟩
  · exfalso
    have hx : 1 / 2 ≤ x := by
      have h2 := ht.axis
      have h3 := ht.length
      have h15 := ht.coden
      generalize st.code = k at *
      rw [len3_eq_sqrt] at h2 h3
      interval_cases k <;> simp [overlap, reach, axisOf, Mat3.column, dotProduct, Fin.sum_univ_three, Matrix.one_apply] at h2 h3 <;> norm_num at h2 <;> linarith
    have h2 := ht.bias h7 1 (le_refl _) (by norm_num)
    simp [overlap, reach, axisOf, Mat3.column, dotProduct, Matrix.one_apply] at h2
    norm_num at h2
    linarith
  · refine ⟨c, ?_⟩
    rw [hnc]
    rcases hσ with rfl | rfl
    · right; funext k; simp [Mat3.column]
    · left; funext k; simp [Mat3.column]
  · refine ⟨c, ?_⟩
    rw [neg_one_smul, hnc]
    rcases hσ with rfl | rfl
    · left; funext k; simp [Mat3.column]
    · right; funext k; simp [Mat3.column]

/-- Two cubes with crossing edges meet the hypotheses of `C73_edge_partial`; the overlap is a tenth and the point is half way -/
example (n0 : Vec3) : ∃ z ∈ boxSet3 0 rollA ![1, 1, 1], z + (1 / 10 : ℝ) • ![0, 0, -1] ∈ boxSet3 ![0, 0, 27 / 10] (rollB 0 1) ![1, 1, 1] ∧
    boxBoxIsActive3 0 rollA ![1, 1, 1] ![0, 0, 27 / 10] (rollB 0 1) ![1, 1, 1] n0 = (![0, 0, -1], [z + (1 / 10 / 2 : ℝ) • ![0, 0, -1]]) := by
  have hA := rollA_orth
  have hB := rollB_orth (c := 0) (s := 1) (by norm_num)
  have hw : ∀ i : Fin 3, 0 < (![1, 1, 1] : Vec3) i := fun i => by fin_cases i <;> simp
  obtain ⟨hall, st, hst, hcode, hn⟩ := chosen7 (c := 0) (s := 1) (w := 1) (by norm_num) one_pos cross_table
  obtain ⟨x, ht, hn1, hcase⟩ := BoxPair.active_some (n0 := n0) hA hB hst
  have hneg : (-1 : ℝ) • (![0, 0, 1] : Vec3) = ![0, 0, -1] := by funext i; fin_cases i <;> simp
  rw [hn, hneg] at hn1
  have hx : x = 1 / 10 := by
    have h1 := ht.axis
    rw [hcode, axis7_len 0 one_pos, sub_zero, axis7_overlap one_pos] at h1
    linarith
  have hov := BoxPair.overlap_of_tested hA hB (fun i => (hw i).le) (fun i => (hw i).le) ht
  rw [hn, hneg, hx] at hov
  have hne : (boxBoxIsActive3 0 rollA ![1, 1, 1] ![0, 0, 27 / 10] (rollB 0 1) ![1, 1, 1] n0).2 ≠ [] := by
    rcases hcase with ⟨-, hp⟩ | ⟨c, σ, hσ, hnc, -⟩ | ⟨c, σ, hσ, hnc, -⟩
    · rw [hp]; simp
    · exfalso
      rw [hn] at hnc
      have h0 := congrFun hnc 0
      have h1 := congrFun hnc 1
      have h2 := congrFun hnc 2
      rcases hσ with rfl | rfl <;> fin_cases c <;> first | (norm_num [rollA, Mat3.column] at h0; done) | norm_num [rollA, Mat3.column] at h1
    · exfalso
      rw [hn] at hnc
      have h0 := congrFun hnc 0
      have h1 := congrFun hnc 1
      have h2 := congrFun hnc 2
      rcases hσ with rfl | rfl <;> fin_cases c <;> first | (norm_num [rollB, Mat3.column] at h0; done) | norm_num [rollB, Mat3.column] at h1
  obtain ⟨z, hz, hz', hp⟩ := C73_edge_partial 0 ![0, 0, 27 / 10] ![1, 1, 1] ![1, 1, 1] n0 rollA (rollB 0 1) hA hB hw hw (n := ![0, 0, -1]) (Prod.ext hn1 rfl) hne
    (by
      have e : ∀ i, rollA 2 i = 0 ∨ rollA 2 i = 4 / 5 ∨ rollA 2 i = 3 / 5 := by
        intro i
        fin_cases i
        exacts [Or.inl rfl, Or.inr (Or.inl rfl), Or.inr (Or.inr rfl)]
      rintro ⟨i, h | h⟩
      · have h2 : (-1 : ℝ) = rollA 2 i := congrFun h 2
        rcases e i with e | e | e <;> rw [e] at h2 <;> norm_num at h2
      · have h2 : (-1 : ℝ) = -(rollA 2 i) := congrFun h 2
        rcases e i with e | e | e <;> rw [e] at h2 <;> norm_num at h2)
    (by
      have e : ∀ i, rollB 0 1 2 i = 0 ∨ rollB 0 1 2 i = 4 / 5 ∨ rollB 0 1 2 i = 3 / 5 := by
        intro i
        fin_cases i
        exacts [Or.inl rfl, Or.inr (Or.inl rfl), Or.inr (Or.inr rfl)]
      rintro ⟨i, h | h⟩
      · have h2 : (-1 : ℝ) = rollB 0 1 2 i := congrFun h 2
        rcases e i with e | e | e <;> rw [e] at h2 <;> norm_num at h2
      · have h2 : (-1 : ℝ) = -(rollB 0 1 2 i) := congrFun h 2
        rcases e i with e | e | e <;> rw [e] at h2 <;> norm_num at h2) hov
    (by
      intro t ht2
      rw [BoxPair.moved_share]
      refine share_of_directions (fun i => (hw i).le) (fun i => (hw i).le) fun f => ?_
      have h1 := hall f
      have h2 := dot_le_len f (-t)
      have h3 : len3 (-t) ≤ 1 / 10 := by
        rw [len3_eq_sqrt, neg_dotProduct, dotProduct_neg, neg_neg]
        exact Real.sqrt_le_iff.mpr ⟨by norm_num, ht2.le⟩
      have h4 := mul_le_mul_of_nonneg_left h3 (len3_nonneg f)
      rw [sub_zero, dotProduct_add]
      linarith)
    (by
      intro i j hi hj
      have hi0 : i = 0 := by
        by_contra hne
        fin_cases i <;> simp [rollA, Fin.sum_univ_three] at hi hne
      have hj0 : j = 0 := by
        by_contra hne
        fin_cases j <;> simp [rollB, Fin.sum_univ_three] at hj hne
      subst hi0 hj0
      simp [rollA, rollB, Fin.sum_univ_three]
      norm_num)
  exact ⟨z, hz, hz', Prod.ext hn1 hp⟩

/-! ### Where the converse of `C73_complete` and of `C73_edge_partial` stop -/

/-- **C73 fails for boxes that only touch.** Two cubes of half width one whose centres are apart by (2, 2, 0) touch along an edge, but no point is reported. -/
theorem C73_false_touching (n0 : Vec3) : (boxSet3 0 1 ![1, 1, 1] ∩ boxSet3 ![2, 2, 0] 1 ![1, 1, 1]).Nonempty ∧
    (boxBoxIsActive3 0 1 ![1, 1, 1] ![2, 2, 0] 1 ![1, 1, 1] n0).2 = [] := by
  have h1 : (1 : Mat3).transpose * 1 = 1 := by simp
  have hfr := frame_of_orthogonal h1
  constructor
  · refine ⟨![1, 1, 0], ⟨![1, 1, 0], fun i => by fin_cases i <;> simp, by simp⟩, ⟨![-1, -1, 0], fun i => by fin_cases i <;> simp, ?_⟩⟩
    funext i
    fin_cases i <;> simp <;> norm_num
  · cases hst : separatingAxes3 0 1 ![1, 1, 1] ![2, 2, 0] 1 ![1, 1, 1] with
    | none => exact BoxPair.active_none hst
    | some st =>
      obtain ⟨x, ht, -, hcase⟩ := BoxPair.active_some (n0 := n0) h1 h1 hst
      have hov : overlap (![2, 2, 0] - 0) 1 ![1, 1, 1] 1 ![1, 1, 1] (axisOf 1 1 1) = 0 := by
        simp [overlap, reach, axisOf, Mat3.column, dotProduct, Matrix.one_apply]
        norm_num
      have hx0 : x = 0 := le_antisymm (by have := ht.faces 1 (le_refl _) (by norm_num) (by norm_num); rwa [hov] at this) ht.nonneg
      rcases hcase with ⟨h7, -⟩ | ⟨c, σ, hσ, hn, hp, hδ⟩ | ⟨c, σ, hσ, hn, hp, hδ⟩
      · have := ht.bias h7 1 (le_refl _) (by norm_num)
        rw [hov, hx0] at this
        norm_num at this
      · rw [hp]
        have hc : c ≠ 2 := by
          rintro rfl
          rw [hn, hx0] at hδ
          simp [reach, Mat3.column, dotProduct, Matrix.one_apply] at hδ
          rcases hσ with rfl | rfl <;> norm_num at hδ
        refine touching_face _ _ _ c hσ hn hc ?_
        fin_cases c <;> simp [referenceAxes] at hc ⊢
      · rw [hp]
        have hc : c ≠ 2 := by
          rintro rfl
          rw [hn, hx0] at hδ
          simp [reach, Mat3.column, dotProduct, Matrix.one_apply] at hδ
          rcases hσ with rfl | rfl <;> norm_num at hδ
        refine touching_face _ _ _ c hσ hn hc ?_
        fin_cases c <;> simp [referenceAxes] at hc ⊢

/-- **C73 fails for long edges that are nearly parallel.** Two beams of half length 1000 and half thickness 1 cross at an angle of about half a degree, with their edges
overlapping by a tenth. The only point that is reported is further than 3 from every point of either beam. -/
theorem C73_false_edges (n0 : Vec3) : ∃ z, (boxBoxIsActive3 0 rollA ![1000, 1, 1] ![0, 0, 27 / 10] (rollB (39999 / 40001) (400 / 40001)) ![1000, 1, 1] n0).2 = [z] ∧
    ∀ y ∈ boxSet3 0 rollA ![1000, 1, 1] ∪ boxSet3 ![0, 0, 27 / 10] (rollB (39999 / 40001) (400 / 40001)) ![1000, 1, 1], 3 ^ 2 < (z - y) ⬝ᵥ (z - y) := by
  have hA := rollA_orth
  have hB := rollB_orth (c := 39999 / 40001) (s := 400 / 40001) (by norm_num)
  obtain ⟨-, st, hst, hcode, hn⟩ := chosen7 (c := 39999 / 40001) (s := 400 / 40001) (w := 1000) (by norm_num) (by norm_num) beam_table
  obtain ⟨x, ht, -, hcase⟩ := BoxPair.active_some (n0 := n0) hA hB hst
  have hp : (boxBoxIsActive3 0 rollA ![1000, 1, 1] ![0, 0, 27 / 10] (rollB (39999 / 40001) (400 / 40001)) ![1000, 1, 1] n0).2 =
      [edgeContact 0 rollA ![1000, 1, 1] ![0, 0, 27 / 10] (rollB (39999 / 40001) (400 / 40001)) ![1000, 1, 1] ![0, 0, 1] 7] := by
    rcases hcase with ⟨-, hp⟩ | ⟨c, σ, hσ, hnc, -⟩ | ⟨c, σ, hσ, hnc, -⟩
    · rw [hp, hn, hcode]
    · exfalso
      rw [hn] at hnc
      have h0 := congrFun hnc 0
      have h1 := congrFun hnc 1
      have h2 := congrFun hnc 2
      rcases hσ with rfl | rfl <;> fin_cases c <;> first | (norm_num [rollA, Mat3.column] at h0; done) | norm_num [rollA, Mat3.column] at h1
    · exfalso
      rw [hn] at hnc
      have h0 := congrFun hnc 0
      have h1 := congrFun hnc 1
      have h2 := congrFun hnc 2
      rcases hσ with rfl | rfl <;> fin_cases c <;> norm_num [rollB, Mat3.column] at h0
  refine ⟨_, hp, ?_⟩
  have hz : edgeContact 0 rollA ![1000, 1, 1] ![0, 0, 27 / 10] (rollB (39999 / 40001) (400 / 40001)) ![1000, 1, 1] ![0, 0, 1] 7 =
      ![-1040 / 40001, 999999 / 200005, 27 / 20] := by
    unfold edgeContact
    simp [rollA, rollB, Mat3.column, lineClosestApproach, dotProduct, Fin.sum_univ_three]
    norm_num
    funext i
    fin_cases i <;> simp <;> norm_num
  rw [hz]
  rintro y (⟨u, hu, rfl⟩ | ⟨u, hu, rfl⟩)
  · have h1 := abs_le.mp (hu 1)
    have h2 := abs_le.mp (hu 2)
    change -1 ≤ u 1 ∧ u 1 ≤ 1 at h1
    change -1 ≤ u 2 ∧ u 2 ≤ 1 at h2
    simp [rollA, dotProduct, Fin.sum_univ_three]
    have h3 : 3 < 999999 / 200005 - (3 / 5 * u 1 + -(4 / 5 * u 2)) := by linarith
    nlinarith [mul_self_nonneg (-1040 / 40001 - u 0), mul_self_nonneg (27 / 20 - (4 / 5 * u 1 + 3 / 5 * u 2))]
  · have h1 := abs_le.mp (hu 1)
    have h2 := abs_le.mp (hu 2)
    change -1 ≤ u 1 ∧ u 1 ≤ 1 at h1
    change -1 ≤ u 2 ∧ u 2 ≤ 1 at h2
    generalize hd : (![-1040 / 40001, 999999 / 200005, 27 / 20] : Vec3) - (![0, 0, 27 / 10] + rollB (39999 / 40001) (400 / 40001) *ᵥ u) = d
    have h3 : 3 < -(400 / 40001) * d 0 + 39999 / 40001 * d 1 := by
      rw [← hd]
      simp [rollB, dotProduct, Fin.sum_univ_three, Matrix.vecHead, Matrix.vecTail]
      linarith
    rw [dotProduct, Fin.sum_univ_three]
    nlinarith [mul_self_nonneg (39999 / 40001 * d 0 + 400 / 40001 * d 1), mul_self_nonneg (d 2)]

end Scisim
