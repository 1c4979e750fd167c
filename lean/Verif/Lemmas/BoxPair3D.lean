import Verif.Lemmas.BoxEdge3D

/-! Two boxes in space: what the test gives, in one place -/

namespace Scisim

open Matrix Topology

namespace BoxPair

theorem share_of_tested {p1 p2 : Vec3} {R1 R2 : Mat3} {s s' : Vec3} {st : Sat3} {x : ℝ} (h1 : R1.transpose * R1 = 1) (h2 : R2.transpose * R2 = 1)
    (hs : ∀ i, 0 ≤ s i) (hs' : ∀ i, 0 ≤ s' i) (ht : Tested (p2 - p1) R1 s R2 s' 15 st x) (t : Vec3) (hlen : len3 t ≤ x / (105 / 100)) :
    (boxSet3 p1 R1 s ∩ boxSet3 (p2 + t) R2 s').Nonempty := by
  refine share_of_directions hs hs' fun f => ?_
  have h3 := ht.directions h1 h2 f
  have h4 := dot_le_len f t
  have h5 := mul_le_mul_of_nonneg_left hlen (len3_nonneg f)
  rw [show p2 + t - p1 = (p2 - p1) + t by abel, dotProduct_add]
  linarith

theorem overlap_of_tested {p1 p2 : Vec3} {R1 R2 : Mat3} {s s' : Vec3} {st : Sat3} {x : ℝ} (h1 : R1.transpose * R1 = 1) (h2 : R2.transpose * R2 = 1)
    (hs : ∀ i, 0 ≤ s i) (hs' : ∀ i, 0 ≤ s' i) (ht : Tested (p2 - p1) R1 s R2 s' 15 st x) :
    IsOverlap3 ((-1 : ℝ) • satNormal3 R1 R2 st) (boxSet3 p1 R1 s) (boxSet3 p2 R2 s') x := by
  obtain ⟨-, -, hx, -⟩ := satNormal3_spec h1 h2 ht
  rw [dotProduct_sub] at hx
  refine ⟨fun a ha b hb => ?_, ?_⟩
  · have h3 := dot_le_reach ha (satNormal3 R1 R2 st)
    have h4 := dot_ge_reach hb (satNormal3 R1 R2 st)
    rw [neg_one_smul, neg_dotProduct, dotProduct_sub]
    linarith
  · obtain ⟨a, ha, hfa⟩ := reach_attained p1 R1 s hs (satNormal3 R1 R2 st)
    obtain ⟨b, hb, hfb⟩ := reach_attained p2 R2 s' hs' (-satNormal3 R1 R2 st)
    rw [reach_neg, neg_dotProduct, neg_dotProduct] at hfb
    refine ⟨a, ha, b, hb, ?_⟩
    rw [neg_one_smul, neg_dotProduct, dotProduct_sub]
    linarith

theorem overlap_unique {n : Vec3} {A B : Set Vec3} {D D' : ℝ} (h : IsOverlap3 n A B D) (h' : IsOverlap3 n A B D') : D = D' := by
  obtain ⟨a, ha, b, hb, e⟩ := h.2
  obtain ⟨a', ha', b', hb', e'⟩ := h'.2
  have h1 := h'.1 a ha b hb
  have h2 := h.1 a' ha' b' hb'
  linarith

/-- The normal of a chosen face -/
theorem face_normal {p : Vec3} {R1 : Mat3} {s : Vec3} {R2 : Mat3} {s' : Vec3} {st : Sat3} {x : ℝ} (h1 : R1.transpose * R1 = 1) (h2 : R2.transpose * R2 = 1)
    (ht : Tested p R1 s R2 s' 15 st x) (h6 : st.code ≤ 6) : ∃ σ : ℝ, (σ = 1 ∨ σ = -1) ∧ satNormal3 R1 R2 st = σ • axisOf R1 R2 st.code := by
  obtain ⟨hnn, -, -, κ, -, hκ⟩ := satNormal3_spec h1 h2 ht
  refine ⟨κ, ?_, hκ⟩
  have hsq := len3_sq (satNormal3 R1 R2 st)
  rw [hnn, hκ, len3_smul, axis_length h1 h2 ht.code1 h6, mul_one, sq_abs] at hsq
  exact sq_eq_one_iff.mp hsq

/-- What the test gives, when no axis separates the boxes -/
theorem active_some {p1 p2 : Vec3} {R1 R2 : Mat3} {s s' n0 : Vec3} (h1 : R1.transpose * R1 = 1) (h2 : R2.transpose * R2 = 1)
    {st : Sat3} (h : separatingAxes3 p1 R1 s p2 R2 s' = some st) :
    ∃ x, Tested (p2 - p1) R1 s R2 s' 15 st x ∧ (boxBoxIsActive3 p1 R1 s p2 R2 s' n0).1 = (-1 : ℝ) • satNormal3 R1 R2 st ∧
      ((7 ≤ st.code ∧ (boxBoxIsActive3 p1 R1 s p2 R2 s' n0).2 = [edgeContact p1 R1 s p2 R2 s' (satNormal3 R1 R2 st) st.code]) ∨
      (∃ (c : Fin 3) (σ : ℝ), (σ = 1 ∨ σ = -1) ∧ satNormal3 R1 R2 st = σ • R1.column c ∧
        (boxBoxIsActive3 p1 R1 s p2 R2 s' n0).2 = faceContacts p1 R1 s p2 R2 s' (satNormal3 R1 R2 st) c ∧
        s c + reach R2.column s' (satNormal3 R1 R2 st) - satNormal3 R1 R2 st ⬝ᵥ (p2 - p1) = x) ∨
      (∃ (c : Fin 3) (σ : ℝ), (σ = 1 ∨ σ = -1) ∧ -satNormal3 R1 R2 st = σ • R2.column c ∧
        (boxBoxIsActive3 p1 R1 s p2 R2 s' n0).2 = faceContacts p2 R2 s' p1 R1 s (-satNormal3 R1 R2 st) c ∧
        s' c + reach R1.column s (-satNormal3 R1 R2 st) - (-satNormal3 R1 R2 st) ⬝ᵥ (p1 - p2) = x)) := by
  obtain ⟨x, ht⟩ := separatingAxes3_some h1 h2 h
  obtain ⟨-, -, hx, -⟩ := satNormal3_spec h1 h2 ht
  have hreach : ∀ {R : Mat3} (_ : R.transpose * R = 1) (w : Vec3) (c : Fin 3) (σ : ℝ), (σ = 1 ∨ σ = -1) → reach R.column w (σ • R.column c) = w c := by
    intro R hR w c σ hσ
    have f := frame_of_orthogonal hR
    rw [reach_smul, reach, f.ortho, f.ortho, f.ortho]
    have hσ1 : |σ| = 1 := by rcases hσ with rfl | rfl <;> simp
    rw [hσ1, one_mul]
    fin_cases c <;> simp
  refine ⟨x, ht, ?_, ?_⟩
  · unfold boxBoxIsActive3 boxBox3
    rw [h]
    dsimp only
    split
    · rfl
    · split <;> rfl
  · have hval : (boxBoxIsActive3 p1 R1 s p2 R2 s' n0).2 = if st.code > 6 then [edgeContact p1 R1 s p2 R2 s' (satNormal3 R1 R2 st) st.code]
        else if st.code ≤ 3 then faceContacts p1 R1 s p2 R2 s' (satNormal3 R1 R2 st) (Fin.ofNat 3 (st.code - 1))
        else faceContacts p2 R2 s' p1 R1 s (-satNormal3 R1 R2 st) (Fin.ofNat 3 (st.code - 4)) := by
      unfold boxBoxIsActive3 boxBox3
      rw [h]
      dsimp only
      split
      · rfl
      · split <;> rfl
    have hc1 := ht.code1
    rcases Nat.lt_or_ge 6 st.code with h6 | h6
    · left
      exact ⟨h6, by rw [hval, if_pos h6]⟩
    · right
      obtain ⟨σ, hσ, hnσ⟩ := face_normal h1 h2 ht h6
      rcases Nat.lt_or_ge 3 st.code with h3 | h3
      · right
        have hax : axisOf R1 R2 st.code = R2.column (Fin.ofNat 3 (st.code - 4)) := by
          generalize st.code = c at *
          interval_cases c <;> rfl
        have hneg : -satNormal3 R1 R2 st = (-σ) • R2.column (Fin.ofNat 3 (st.code - 4)) := by rw [hnσ, hax, neg_smul]
        refine ⟨_, -σ, by rcases hσ with rfl | rfl <;> simp, hneg, by rw [hval, if_neg (not_lt.mpr h6), if_neg (not_le.mpr h3)], ?_⟩
        have hr := hreach h2 s' (Fin.ofNat 3 (st.code - 4)) (-σ) (by rcases hσ with rfl | rfl <;> simp)
        rw [← hneg, reach_neg] at hr
        rw [← hr, reach_neg, hx, neg_dotProduct, dotProduct_sub, dotProduct_sub]
        ring
      · left
        have hax : axisOf R1 R2 st.code = R1.column (Fin.ofNat 3 (st.code - 1)) := by
          generalize st.code = c at *
          interval_cases c <;> rfl
        rw [hax] at hnσ
        refine ⟨_, σ, hσ, hnσ, by rw [hval, if_neg (not_lt.mpr h6), if_pos h3], ?_⟩
        have hr := hreach h1 s (Fin.ofNat 3 (st.code - 1)) σ hσ
        rw [← hnσ] at hr
        rw [← hr, hx]

theorem active_none {p1 p2 : Vec3} {R1 R2 : Mat3} {s s' n0 : Vec3} (h : separatingAxes3 p1 R1 s p2 R2 s' = none) :
    (boxBoxIsActive3 p1 R1 s p2 R2 s' n0).2 = [] := by
  unfold boxBoxIsActive3 boxBox3
  rw [h]

theorem disjoint_of_none {p1 p2 : Vec3} {R1 R2 : Mat3} {s s' : Vec3} (h1 : R1.transpose * R1 = 1) (h2 : R2.transpose * R2 = 1)
    (h : separatingAxes3 p1 R1 s p2 R2 s' = none) : ¬ (boxSet3 p1 R1 s ∩ boxSet3 p2 R2 s').Nonempty := by
  rintro ⟨z, hz1, hz2⟩
  obtain ⟨g, hg⟩ := separatingAxes3_none h1 h2 h
  have a1 := dot_le_reach hz1 g
  have a2 := dot_ge_reach hz1 g
  have b1 := dot_le_reach hz2 g
  have b2 := dot_ge_reach hz2 g
  rw [overlap, dotProduct_sub] at hg
  rcases abs_cases (g ⬝ᵥ p2 - g ⬝ᵥ p1) with ⟨h3, -⟩ | ⟨h3, -⟩ <;> linarith

theorem points_some {p1 p2 : Vec3} {R1 R2 : Mat3} {s s' n0 : Vec3} (hp : (boxBoxIsActive3 p1 R1 s p2 R2 s' n0).2 ≠ []) :
    ∃ st, separatingAxes3 p1 R1 s p2 R2 s' = some st := by
  cases h : separatingAxes3 p1 R1 s p2 R2 s' with
  | none => exact absurd (active_none h) hp
  | some st => exact ⟨st, rfl⟩

theorem moved_share (t : Vec3) (p1 p2 : Vec3) (R1 R2 : Mat3) (s s' : Vec3) :
    (moved3 t (boxSet3 p1 R1 s) ∩ boxSet3 p2 R2 s').Nonempty ↔ (boxSet3 p1 R1 s ∩ boxSet3 (p2 + -t) R2 s').Nonempty := by
  rw [← moved_boxSet3]
  constructor
  · rintro ⟨z, hz, hz'⟩
    exact ⟨z - t, hz, by show z - t - -t ∈ boxSet3 p2 R2 s'; rwa [sub_neg_eq_add, sub_add_cancel]⟩
  · rintro ⟨z, hz, hz'⟩
    refine ⟨z + t, by show z + t - t ∈ boxSet3 p1 R1 s; rwa [add_sub_cancel_right], ?_⟩
    have : z - -t ∈ boxSet3 p2 R2 s' := hz'
    rwa [sub_neg_eq_add] at this

theorem interior_overlap {p1 p2 : Vec3} {R1 R2 : Mat3} {s s' : Vec3} (h1 : R1.transpose * R1 = 1) (h2 : R2.transpose * R2 = 1)
    (h : (boxInterior3 p1 R1 s ∩ boxInterior3 p2 R2 s').Nonempty) {f : Vec3} (hf : f ≠ 0) : 0 < reach R1.column s f + reach R2.column s' f - f ⬝ᵥ (p2 - p1) := by
  obtain ⟨z, ⟨a, ha, hza⟩, ⟨b, hb, hzb⟩⟩ := h
  have hone : ∀ {R : Mat3} (_ : R.transpose * R = 1) {w a : Vec3}, (∀ i, |a i| < w i) → ∀ {f : Vec3}, f ≠ 0 → f ⬝ᵥ (R *ᵥ a) < reach R.column w f := by
    intro R hR w a ha f hf
    have fr := frame_of_orthogonal hR
    rw [dot_mulVec, reach]
    have hle : ∀ i, a i * (f ⬝ᵥ R.column i) ≤ w i * |f ⬝ᵥ R.column i| := fun i => mul_le_mul_abs (ha i).le
    have hlt : ∀ i, f ⬝ᵥ R.column i ≠ 0 → a i * (f ⬝ᵥ R.column i) < w i * |f ⬝ᵥ R.column i| := by
      intro i hi
      calc a i * (f ⬝ᵥ R.column i) ≤ |a i * (f ⬝ᵥ R.column i)| := le_abs_self _
        _ = |a i| * |f ⬝ᵥ R.column i| := abs_mul _ _
        _ < w i * |f ⬝ᵥ R.column i| := mul_lt_mul_of_pos_right (ha i) (abs_pos.mpr hi)
    by_cases h0 : f ⬝ᵥ R.column 0 = 0
    · by_cases h1 : f ⬝ᵥ R.column 1 = 0
      · by_cases h2 : f ⬝ᵥ R.column 2 = 0
        · exact absurd (by rw [fr.expand f, h0, h1, h2]; simp) hf
        · linarith [hle 0, hle 1, hlt 2 h2]
      · linarith [hle 0, hlt 1 h1, hle 2]
    · linarith [hlt 0 h0, hle 1, hle 2]
  have e1 := hone h1 ha hf
  have e2 := hone h2 hb (neg_ne_zero.mpr hf)
  rw [reach_neg, neg_dotProduct] at e2
  have hz : f ⬝ᵥ p1 + f ⬝ᵥ (R1 *ᵥ a) = f ⬝ᵥ p2 + f ⬝ᵥ (R2 *ᵥ b) := by
    rw [← dotProduct_add, ← dotProduct_add, ← hza, ← hzb]
  rw [dotProduct_sub]
  linarith

end BoxPair
end Scisim
