import Verif.Lemmas.BoxFace3D

/-! The contact point when two edges meet -/

namespace Scisim

open Matrix Topology

/-- The axis of an edge is not the normal of a face: such a face would have been preferred -/
theorem edge_not_face {p : Vec3} {R1 : Mat3} {s : Vec3} {R2 : Mat3} {s' : Vec3} {st : Sat3} {x : ℝ} (h1 : R1.transpose * R1 = 1) (h2 : R2.transpose * R2 = 1)
    (ht : Tested p R1 s R2 s' 15 st x) (h7 : 7 ≤ st.code) {c : Nat} (hc1 : 1 ≤ c) (hc6 : c ≤ 6) {k : ℝ} (hk : satNormal3 R1 R2 st = k • axisOf R1 R2 c) : False := by
  obtain ⟨hnn, hnp, hx, -⟩ := satNormal3_spec h1 h2 ht
  have hb := ht.bias h7 c hc1 hc6
  have hl := axis_length h1 h2 hc1 hc6
  have hk1 : |k| = 1 := by
    have hsq := len3_sq (satNormal3 R1 R2 st)
    rw [hnn, hk, len3_smul, hl, mul_one, sq_abs] at hsq
    have := sq_abs k
    rw [hsq] at this
    nlinarith [abs_nonneg k]
  rw [hk, reach_smul, reach_smul, hk1, one_mul, one_mul, smul_dotProduct, smul_eq_mul] at hx
  rw [hk, smul_dotProduct, smul_eq_mul] at hnp
  have h4 : k * (axisOf R1 R2 c ⬝ᵥ p) = |axisOf R1 R2 c ⬝ᵥ p| := by
    rw [← abs_of_nonneg hnp, abs_mul, hk1, one_mul]
  rw [overlap] at hb
  rw [h4] at hx
  have := ht.nonneg
  linarith

theorem edge_code {c : Nat} (h7 : 7 ≤ c) (h15 : c ≤ 15) : ∃ i j : Fin 3, Fin.ofNat 3 ((c - 7) / 3) = i ∧ Fin.ofNat 3 ((c - 7) % 3) = j ∧ c = 7 + 3 * i.val + j.val := by
  interval_cases c <;> decide

/-- The point of a box that is furthest in a direction has its coordinates at the limits, where the direction is not orthogonal to the axis -/
theorem furthest_coordinates {u : Fin 3 → Vec3} {w a n : Vec3} (ha : ∀ i, |a i| ≤ w i)
    (h : a 0 * (n ⬝ᵥ u 0) + a 1 * (n ⬝ᵥ u 1) + a 2 * (n ⬝ᵥ u 2) = reach u w n) (k : Fin 3) (hk : n ⬝ᵥ u k ≠ 0) :
    a k = (if n ⬝ᵥ u k > 0 then 1 else -1) * w k := by
  have hone : ∀ i, a i * (n ⬝ᵥ u i) ≤ w i * |n ⬝ᵥ u i| := fun i => mul_le_mul_abs (ha i)
  have heq : a k * (n ⬝ᵥ u k) = w k * |n ⬝ᵥ u k| := by
    have h0 := hone 0
    have h1 := hone 1
    have h2 := hone 2
    rw [reach] at h
    fin_cases k <;> simp <;> linarith
  split
  · rename_i hpos
    rw [abs_of_pos hpos] at heq
    rw [one_mul]
    exact mul_right_cancel₀ hk heq
  · rename_i hpos
    have hneg : n ⬝ᵥ u k < 0 := lt_of_le_of_ne (not_lt.mp hpos) hk
    rw [abs_of_neg hneg] at heq
    have : a k * (n ⬝ᵥ u k) = -1 * w k * (n ⬝ᵥ u k) := by linarith
    exact mul_right_cancel₀ hk this

theorem lineClosestApproach_meet {pa ua pb ub z n : Vec3} {α β x : ℝ} (haa : ua ⬝ᵥ ua = 1) (hbb : ub ⬝ᵥ ub = 1) (hna : n ⬝ᵥ ua = 0) (hnb : n ⬝ᵥ ub = 0)
    (hz : z = pa + α • ua) (hz' : z = pb + β • ub + x • n) (hd : 1 / 10000 < 1 - (ua ⬝ᵥ ub) * (ua ⬝ᵥ ub)) : lineClosestApproach pa ua pb ub = (α, β) := by
  have hp : pb - pa = α • ua - β • ub - x • n := by
    have h1 : pb = z - β • ub - x • n := by rw [hz']; abel
    have h2 : pa = z - α • ua := by rw [hz]; abel
    rw [h1, h2]; abel
  have hq1 : ua ⬝ᵥ (pb - pa) = α - β * (ua ⬝ᵥ ub) := by
    rw [hp, dotProduct_sub, dotProduct_sub, dotProduct_smul, dotProduct_smul, dotProduct_smul, haa, dotProduct_comm ua n, hna, smul_eq_mul, smul_eq_mul, smul_zero]; ring
  have hq2 : ub ⬝ᵥ (pb - pa) = α * (ua ⬝ᵥ ub) - β := by
    rw [hp, dotProduct_sub, dotProduct_sub, dotProduct_smul, dotProduct_smul, dotProduct_smul, hbb, dotProduct_comm ub n, hnb, dotProduct_comm ub ua, smul_eq_mul,
      smul_eq_mul, smul_zero]; ring
  unfold lineClosestApproach
  dsimp only
  rw [if_neg (not_le.mpr hd), hq1, hq2]
  have hne : 1 - (ua ⬝ᵥ ub) * (ua ⬝ᵥ ub) ≠ 0 := by linarith
  congr 1
  · rw [mul_one_div, div_eq_iff hne]; ring
  · rw [mul_one_div, div_eq_iff hne]; ring

/-- When the chosen axis is the one of least overlap, and the edges are not nearly parallel, the contact point is half way between the two points of the edges that
touch after the boxes are moved apart -/
theorem edgeContact_spec {p1 p2 : Vec3} {R1 : Mat3} {s : Vec3} {R2 : Mat3} {s' : Vec3} {st : Sat3} {x : ℝ} (h1 : R1.transpose * R1 = 1) (h2 : R2.transpose * R2 = 1)
    (hs : ∀ i, 0 ≤ s i) (hs' : ∀ i, 0 ≤ s' i) (ht : Tested (p2 - p1) R1 s R2 s' 15 st x) (h7 : 7 ≤ st.code)
    (hmin : ∀ f, x * len3 f ≤ reach R1.column s f + reach R2.column s' f - f ⬝ᵥ (p2 - p1))
    (hpar : ∀ i j, satNormal3 R1 R2 st ⬝ᵥ R1.column i = 0 → satNormal3 R1 R2 st ⬝ᵥ R2.column j = 0 →
      1 / 10000 < 1 - (R1.column i ⬝ᵥ R2.column j) * (R1.column i ⬝ᵥ R2.column j)) :
    ∃ z ∈ boxSet3 p1 R1 s, z - x • satNormal3 R1 R2 st ∈ boxSet3 p2 R2 s' ∧
      edgeContact p1 R1 s p2 R2 s' (satNormal3 R1 R2 st) st.code = z - (x / 2) • satNormal3 R1 R2 st := by
  obtain ⟨hnn, hnp, hx, κ, hκ, hκn⟩ := satNormal3_spec h1 h2 ht
  obtain ⟨i, j, hi, hj, hcode⟩ := edge_code h7 ht.coden
  obtain ⟨hgi, hgj, -⟩ := axis_cross (R2 := R2) h1 i j
  rw [← hcode] at hgi hgj
  have f1 := frame_of_orthogonal h1
  have f2 := frame_of_orthogonal h2
  have hno := fun c hc1 hc6 k hk => edge_not_face h1 h2 ht h7 (c := c) hc1 hc6 (k := k) hk
  set n := satNormal3 R1 R2 st with hn
  have hni : n ⬝ᵥ R1.column i = 0 := by rw [hκn, smul_dotProduct, hgi, smul_zero]
  have hnj : n ⬝ᵥ R2.column j = 0 := by rw [hκn, smul_dotProduct, hgj, smul_zero]
  -- the normal is orthogonal to one axis of each box only
  have hu : ∀ k, k ≠ i → n ⬝ᵥ R1.column k ≠ 0 := by
    intro k hki h0
    have he := f1.expand n
    obtain ⟨l, hl⟩ : ∃ l : Fin 3, n = (n ⬝ᵥ R1.column l) • R1.column l := by
      fin_cases i <;> fin_cases k <;> simp at hki h0 hni <;> simp only [h0, hni, zero_smul, zero_add, add_zero] at he
      · exact ⟨2, he⟩
      · exact ⟨1, he⟩
      · exact ⟨2, he⟩
      · exact ⟨0, he⟩
      · exact ⟨1, he⟩
      · exact ⟨0, he⟩
    refine hno (1 + l.val) (by omega) (by omega) (n ⬝ᵥ R1.column l) (hl.trans ?_)
    fin_cases l <;> rfl
  have hv : ∀ k, k ≠ j → n ⬝ᵥ R2.column k ≠ 0 := by
    intro k hki h0
    have he := f2.expand n
    obtain ⟨l, hl⟩ : ∃ l : Fin 3, n = (n ⬝ᵥ R2.column l) • R2.column l := by
      fin_cases j <;> fin_cases k <;> simp at hki h0 hnj <;> simp only [h0, hnj, zero_smul, zero_add, add_zero] at he
      · exact ⟨2, he⟩
      · exact ⟨1, he⟩
      · exact ⟨2, he⟩
      · exact ⟨0, he⟩
      · exact ⟨1, he⟩
      · exact ⟨0, he⟩
    refine hno (4 + l.val) (by omega) (by omega) (n ⬝ᵥ R2.column l) (hl.trans ?_)
    fin_cases l <;> rfl
  have hlen : len3 n = 1 := by rw [len3_eq_sqrt, hnn, Real.sqrt_one]
  -- the boxes touch when they are moved apart along the normal
  obtain ⟨z, ⟨a, ha, hza⟩, ⟨b, hb, hzb⟩⟩ : (boxSet3 p1 R1 s ∩ boxSet3 (p2 + x • n) R2 s').Nonempty := by
    refine share_of_directions hs hs' fun f => ?_
    have h3 := hmin f
    have h4 := dot_le_len f n
    rw [hlen, mul_one] at h4
    have h5 := mul_le_mul_of_nonneg_left h4 ht.nonneg
    rw [show p2 + x • n - p1 = (p2 - p1) + x • n by abel, dotProduct_add, dotProduct_smul, smul_eq_mul]
    linarith
  have hnz1 : n ⬝ᵥ z ≤ n ⬝ᵥ p1 + reach R1.column s n := dot_le_reach ⟨a, ha, hza⟩ n
  have hnz2 : n ⬝ᵥ (p2 + x • n) - reach R2.column s' n ≤ n ⬝ᵥ z := dot_ge_reach ⟨b, hb, hzb⟩ n
  rw [dotProduct_add, dotProduct_smul, hnn, smul_eq_mul, mul_one] at hnz2
  rw [dotProduct_sub] at hx
  have hA : a 0 * (n ⬝ᵥ R1.column 0) + a 1 * (n ⬝ᵥ R1.column 1) + a 2 * (n ⬝ᵥ R1.column 2) = reach R1.column s n := by
    have h3 : n ⬝ᵥ z = n ⬝ᵥ p1 + (a 0 * (n ⬝ᵥ R1.column 0) + a 1 * (n ⬝ᵥ R1.column 1) + a 2 * (n ⬝ᵥ R1.column 2)) := by rw [hza, dotProduct_add, dot_mulVec]
    linarith
  have hB : b 0 * ((-n) ⬝ᵥ R2.column 0) + b 1 * ((-n) ⬝ᵥ R2.column 1) + b 2 * ((-n) ⬝ᵥ R2.column 2) = reach R2.column s' (-n) := by
    have h3 : n ⬝ᵥ z = n ⬝ᵥ p2 + x + (b 0 * (n ⬝ᵥ R2.column 0) + b 1 * (n ⬝ᵥ R2.column 1) + b 2 * (n ⬝ᵥ R2.column 2)) := by
      rw [hzb, dotProduct_add, dot_mulVec, dotProduct_add, dotProduct_smul, hnn, smul_eq_mul, mul_one]
    rw [reach_neg, neg_dotProduct, neg_dotProduct, neg_dotProduct]
    linarith
  have hca := fun k hk => furthest_coordinates ha hA k (hu k hk)
  have hcb := fun k hk => furthest_coordinates hb hB k (by rw [neg_dotProduct]; exact neg_ne_zero.mpr (hv k hk))
  have hsign : ∀ k, k ≠ j → (if (-n) ⬝ᵥ R2.column k > 0 then (1 : ℝ) else -1) = if n ⬝ᵥ R2.column k > 0 then -1 else 1 := by
    intro k hk
    have hne := hv k hk
    rw [neg_dotProduct]
    rcases lt_or_gt_of_ne hne with h | h
    · rw [if_pos (by linarith), if_neg (by linarith)]
    · rw [if_neg (by linarith), if_pos h]
  -- the two points on the edges
  set pa : Vec3 := fun k => p1 k + (if n ⬝ᵥ R1.column 0 > 0 then 1 else -1) * s 0 * R1 k 0 + (if n ⬝ᵥ R1.column 1 > 0 then 1 else -1) * s 1 * R1 k 1 +
    (if n ⬝ᵥ R1.column 2 > 0 then 1 else -1) * s 2 * R1 k 2 with hpa
  set pb : Vec3 := fun k => p2 k + (if n ⬝ᵥ R2.column 0 > 0 then -1 else 1) * s' 0 * R2 k 0 + (if n ⬝ᵥ R2.column 1 > 0 then -1 else 1) * s' 1 * R2 k 1 +
    (if n ⬝ᵥ R2.column 2 > 0 then -1 else 1) * s' 2 * R2 k 2 with hpb
  have hza' : z = pa + (a i - (if n ⬝ᵥ R1.column i > 0 then 1 else -1) * s i) • R1.column i := by
    rw [hza, mulVec_columns, hpa]
    funext k
    simp only [Pi.add_apply, Pi.smul_apply, smul_eq_mul, Mat3.column]
    have h0 := hca 0
    have h1 := hca 1
    have h2 := hca 2
    fin_cases i
    · rw [h1 (by decide), h2 (by decide)]; simp only [Fin.zero_eta]; ring
    · rw [h0 (by decide), h2 (by decide)]; simp only [Fin.mk_one]; ring
    · rw [h0 (by decide), h1 (by decide)]; simp only [Fin.reduceFinMk]; ring
  have hzb' : z = pb + (b j - (if n ⬝ᵥ R2.column j > 0 then -1 else 1) * s' j) • R2.column j + x • n := by
    rw [hzb, mulVec_columns, hpb]
    funext k
    simp only [Pi.add_apply, Pi.smul_apply, smul_eq_mul, Mat3.column]
    have h0 := hcb 0
    have h1 := hcb 1
    have h2 := hcb 2
    have g0 := hsign 0
    have g1 := hsign 1
    have g2 := hsign 2
    fin_cases j
    · rw [h1 (by decide), h2 (by decide), g1 (by decide), g2 (by decide)]; simp only [Fin.zero_eta]; ring
    · rw [h0 (by decide), h2 (by decide), g0 (by decide), g2 (by decide)]; simp only [Fin.mk_one]; ring
    · rw [h0 (by decide), h1 (by decide), g0 (by decide), g1 (by decide)]; simp only [Fin.reduceFinMk]; ring
  have hclose := lineClosestApproach_meet (by rw [f1.ortho, if_pos rfl]) (by rw [f2.ortho, if_pos rfl]) hni hnj hza' hzb' (hpar i j hni hnj)
  refine ⟨z, ⟨a, ha, hza⟩, ⟨b, hb, ?_⟩, ?_⟩
  · rw [hzb]; abel
  · have hec : edgeContact p1 R1 s p2 R2 s' n st.code = (1 / 2 : ℝ) • ((pa + (lineClosestApproach pa (R1.column i) pb (R2.column j)).1 • R1.column i) +
        (pb + (lineClosestApproach pa (R1.column i) pb (R2.column j)).2 • R2.column j)) := by
      rw [← hi, ← hj]; rfl
    rw [hec, hclose]
    dsimp only
    rw [← hza']
    have h3 : pb + (b j - (if n ⬝ᵥ R2.column j > 0 then -1 else 1) * s' j) • R2.column j = z - x • n := by rw [hzb']; abel
    rw [h3]
    funext k
    simp only [Pi.add_apply, Pi.smul_apply, Pi.sub_apply, smul_eq_mul]; ring

end Scisim
