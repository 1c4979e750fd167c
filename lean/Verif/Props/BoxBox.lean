import Mathlib.Tactic.FieldSimp
import Verif.Lemmas.BoxBox
/-!
# C46: box against box
-/

namespace Scisim

/-- By how much the projections of the boxes on the direction `v` are apart (negative when they overlap) -/
noncomputable def axisPen (R0 R1 : M22) (x0 r0 x1 r1 v : V2 ℝ) : ℝ :=
  |v.dot (x1 - x0)| - (|v.dot (R0.col 0)| * r0.x + |v.dot (R0.col 1)| * r0.y + |v.dot (R1.col 0)| * r1.x + |v.dot (R1.col 1)| * r1.y)

theorem axisPen_swap (R0 R1 : M22) (x0 r0 x1 r1 v : V2 ℝ) : axisPen R0 R1 x0 r0 x1 r1 v = axisPen R1 R0 x1 r1 x0 r0 v := by
  unfold axisPen
  have : v.dot (x1 - x0) = -(v.dot (x0 - x1)) := by simp [V2.dot]; ring
  rw [this, abs_neg]; ring

/-- The four directions that are tested -/
def satAxis (R0 R1 : M22) : Fin 4 → V2 ℝ := fun i => if i = 0 then R0.col 0 else if i = 1 then R0.col 1 else if i = 2 then R1.col 0 else R1.col 1

theorem dot_comm2 (u v : V2 ℝ) : u.dot v = v.dot u := by simp only [V2.dot]; ring

theorem rot_col00 (th : ℝ) : ((rotation2D th).col 0).dot ((rotation2D th).col 0) = 1 := by
  have := Real.sin_sq_add_cos_sq th
  simp only [rotation2D, M22.col, V2.dot, if_true]
  linear_combination this

theorem rot_col11 (th : ℝ) : ((rotation2D th).col 1).dot ((rotation2D th).col 1) = 1 := by
  have := Real.sin_sq_add_cos_sq th
  simp [rotation2D, M22.col, V2.dot]
  linear_combination this

theorem rot_col01 (th : ℝ) : ((rotation2D th).col 0).dot ((rotation2D th).col 1) = 0 := by
  simp [rotation2D, M22.col, V2.dot]; ring

theorem rot_col10 (th : ℝ) : ((rotation2D th).col 1).dot ((rotation2D th).col 0) = 0 := by
  rw [dot_comm2, rot_col01]

theorem satAxes_eq (th0 th1 : ℝ) (x0 r0 x1 r1 : V2 ℝ) : ∃ d w : Fin 4 → ℝ,
    (∀ i, d i = (satAxis (rotation2D th0) (rotation2D th1) i).dot (x1 - x0)) ∧
    (∀ i, |d i| - w i = axisPen (rotation2D th0) (rotation2D th1) x0 r0 x1 r1 (satAxis (rotation2D th0) (rotation2D th1) i)) ∧
    boxBoxSeparatingAxes (rotation2D th0) (rotation2D th1) x0 r0 x1 r1 =
      (axisAlignedSeperatingTest (d 0) (w 0) 0 ⟨⊥, false, none⟩).bind fun s =>
      (axisAlignedSeperatingTest (d 1) (w 1) 1 s).bind fun s =>
      (axisAlignedSeperatingTest (d 2) (w 2) 2 s).bind fun s => axisAlignedSeperatingTest (d 3) (w 3) 3 s := by
  let R0 := rotation2D th0
  let R1 := rotation2D th1
  let Q := (R0.transpose.mul R1).cwiseAbs
  let p0 := R0.transpose.mulVec (x1 - x0)
  let p1 := R1.transpose.mulVec (x1 - x0)
  let w0 := Q.mulVec r1 + r0
  let w1 := Q.transpose.mulVec r0 + r1
  refine ⟨fun i => if i = 0 then p0.x else if i = 1 then p0.y else if i = 2 then p1.x else p1.y,
    fun i => if i = 0 then w0.x else if i = 1 then w0.y else if i = 2 then w1.x else w1.y, ?_, ?_, rfl⟩
  · intro i
    fin_cases i <;> simp [p0, p1, R0, R1, satAxis, M22.col, M22.mulVec, M22.transpose, V2.dot, rotation2D]
  · have e00 : Q.m00 = |(R0.col 0).dot (R1.col 0)| := rfl
    have e01 : Q.m01 = |(R0.col 0).dot (R1.col 1)| := rfl
    have e10 : Q.m10 = |(R0.col 1).dot (R1.col 0)| := rfl
    have e11 : Q.m11 = |(R0.col 1).dot (R1.col 1)| := rfl
    have d0x : p0.x = (R0.col 0).dot (x1 - x0) := rfl
    have d0y : p0.y = (R0.col 1).dot (x1 - x0) := rfl
    have d1x : p1.x = (R1.col 0).dot (x1 - x0) := rfl
    have d1y : p1.y = (R1.col 1).dot (x1 - x0) := rfl
    have w0x : w0.x = Q.m00 * r1.x + Q.m01 * r1.y + r0.x := rfl
    have w0y : w0.y = Q.m10 * r1.x + Q.m11 * r1.y + r0.y := rfl
    have w1x : w1.x = Q.m00 * r0.x + Q.m10 * r0.y + r1.x := rfl
    have w1y : w1.y = Q.m01 * r0.x + Q.m11 * r0.y + r1.y := rfl
    intro i
    fin_cases i
    · show |p0.x| - w0.x = axisPen R0 R1 x0 r0 x1 r1 (R0.col 0)
      rw [d0x, w0x, e00, e01, axisPen, rot_col00, rot_col01, abs_one, abs_zero]; ring
    · show |p0.y| - w0.y = axisPen R0 R1 x0 r0 x1 r1 (R0.col 1)
      rw [d0y, w0y, e10, e11, axisPen, rot_col11, rot_col10, abs_one, abs_zero]; ring
    · show |p1.x| - w1.x = axisPen R0 R1 x0 r0 x1 r1 (R1.col 0)
      rw [d1x, w1x, e00, e10, axisPen, rot_col00, rot_col01, abs_one, abs_zero, dot_comm2 (R0.col 0), dot_comm2 (R0.col 1)]; ring
    · show |p1.y| - w1.y = axisPen R0 R1 x0 r0 x1 r1 (R1.col 1)
      rw [d1y, w1y, e01, e11, axisPen, rot_col11, rot_col10, abs_one, abs_zero, dot_comm2 (R0.col 0), dot_comm2 (R0.col 1)]; ring

/-- The separating axis test finds an axis exactly when one of the four directions has the projections apart; otherwise it records the direction
of least penetration and its orientation. -/
theorem boxBoxSeparatingAxes_spec (th0 th1 : ℝ) (x0 r0 x1 r1 : V2 ℝ) :
    let R0 := rotation2D th0
    let R1 := rotation2D th1
    (boxBoxSeparatingAxes R0 R1 x0 r0 x1 r1 = none ∧ ∃ i, 0 < axisPen R0 R1 x0 r0 x1 r1 (satAxis R0 R1 i)) ∨
    (∃ st f, boxBoxSeparatingAxes R0 R1 x0 r0 x1 r1 = some st ∧ st.feature = some f ∧
      st.invert = decide ((satAxis R0 R1 f).dot (x1 - x0) < 0) ∧
      ∀ i, axisPen R0 R1 x0 r0 x1 r1 (satAxis R0 R1 i) ≤ axisPen R0 R1 x0 r0 x1 r1 (satAxis R0 R1 f) ∧
        axisPen R0 R1 x0 r0 x1 r1 (satAxis R0 R1 i) ≤ 0) := by
  intro R0 R1
  obtain ⟨d, w, hd, hw, he⟩ := satAxes_eq th0 th1 x0 r0 x1 r1
  rcases satChain d w with ⟨h, i, hi⟩ | ⟨st, h, f, _, h1, _, h3, h4⟩
  · left
    exact ⟨he.trans h, i, by rw [hw] at hi; exact hi⟩
  · right
    refine ⟨st, f, he.trans h, h1, by rw [h3, hd], fun i => ?_⟩
    have := h4 i trivial
    rw [hw, hw] at this
    exact this

/-! ## Projections of a box -/

theorem box_projection (x : V2 ℝ) (th : ℝ) (r u z : V2 ℝ) (hz : z ∈ boxSet x th r) :
    |u.dot z - u.dot x| ≤ |u.dot ((rotation2D th).col 0)| * r.x + |u.dot ((rotation2D th).col 1)| * r.y := by
  obtain ⟨a, b, ha, hb, rfl⟩ := hz
  have : u.dot ⟨x.x + a * Real.cos th - b * Real.sin th, x.y + a * Real.sin th + b * Real.cos th⟩ - u.dot x =
      u.dot ((rotation2D th).col 0) * a + u.dot ((rotation2D th).col 1) * b := by
    simp [V2.dot, rotation2D, M22.col]; ring
  rw [this]
  refine le_trans (abs_add_le _ _) ?_
  rw [abs_mul, abs_mul]
  exact add_le_add (mul_le_mul_of_nonneg_left ha (abs_nonneg _)) (mul_le_mul_of_nonneg_left hb (abs_nonneg _))

theorem box_extreme (x : V2 ℝ) (th : ℝ) (r u : V2 ℝ) (hx : 0 ≤ r.x) (hy : 0 ≤ r.y) :
    ∃ z ∈ boxSet x th r, u.dot z = u.dot x + (|u.dot ((rotation2D th).col 0)| * r.x + |u.dot ((rotation2D th).col 1)| * r.y) := by
  obtain ⟨s, hs, hs'⟩ := abs_sign_one (u.dot ((rotation2D th).col 0))
  obtain ⟨t, ht, ht'⟩ := abs_sign_one (u.dot ((rotation2D th).col 1))
  refine ⟨_, ⟨s * r.x, t * r.y, ?_, ?_, rfl⟩, ?_⟩
  · rcases hs with rfl | rfl <;> simp [abs_of_nonneg hx]
  · rcases ht with rfl | rfl <;> simp [abs_of_nonneg hy]
  · rw [← hs', ← ht']
    simp [V2.dot, rotation2D, M22.col]; ring

/-- A direction on which the projections are apart gives a line that separates the boxes. -/
theorem separated_of_axisPen (x0 : V2 ℝ) (th0 : ℝ) (r0 x1 : V2 ℝ) (th1 : ℝ) (r1 v : V2 ℝ)
    (h : 0 < axisPen (rotation2D th0) (rotation2D th1) x0 r0 x1 r1 v) :
    ∃ u c, SeparatedBy u c (boxSet x0 th0 r0) (boxSet x1 th1 r1) := by
  obtain ⟨s, hs, hs'⟩ := abs_sign_one (v.dot (x1 - x0))
  have hsm : ∀ w : V2 ℝ, (s • v).dot w = s * v.dot w := by intro w; simp [V2.dot]; ring
  have habs : ∀ w : V2 ℝ, |(s • v).dot w| = |v.dot w| := by
    intro w
    rw [hsm, abs_mul]
    rcases hs with rfl | rfl <;> simp
  have hp : (s • v).dot x1 - (s • v).dot x0 = |v.dot (x1 - x0)| := by
    rw [← hs', hsm, hsm]; simp [V2.dot]; ring
  unfold axisPen at h
  rw [← hp] at h
  set E0 := |v.dot ((rotation2D th0).col 0)| * r0.x + |v.dot ((rotation2D th0).col 1)| * r0.y with hE0
  set E1 := |v.dot ((rotation2D th1).col 0)| * r1.x + |v.dot ((rotation2D th1).col 1)| * r1.y with hE1
  refine ⟨s • v, ((s • v).dot x0 + E0 + ((s • v).dot x1 - E1)) / 2, fun z hz => ?_, fun z hz => ?_⟩
  · have := box_projection x0 th0 r0 (s • v) z hz
    rw [habs, habs, ← hE0] at this
    have := (abs_le.mp this).2
    show (s • v).dot z < _
    linarith
  · have := box_projection x1 th1 r1 (s • v) z hz
    rw [habs, habs, ← hE1] at this
    have := (abs_le.mp this).1
    show _ < (s • v).dot z
    linarith

theorem not_share_of_separated (S T : Set (V2 ℝ)) (h : ∃ u c, SeparatedBy u c S T) : ¬ ∃ z, z ∈ S ∧ z ∈ T := by
  rintro ⟨z, h0, h1⟩
  obtain ⟨u, c, hs, ht⟩ := h
  linarith [hs z h0, ht z h1]

/-- If none of the four directions has the projections apart, the boxes share a point. -/
theorem share_of_axisPen (x0 : V2 ℝ) (th0 : ℝ) (r0 x1 : V2 ℝ) (th1 : ℝ) (r1 : V2 ℝ) (h0x : 0 ≤ r0.x) (h0y : 0 ≤ r0.y) (h1x : 0 ≤ r1.x) (h1y : 0 ≤ r1.y)
    (h : ∀ i, axisPen (rotation2D th0) (rotation2D th1) x0 r0 x1 r1 (satAxis (rotation2D th0) (rotation2D th1) i) ≤ 0) :
    ∃ z, z ∈ boxSet x0 th0 r0 ∧ z ∈ boxSet x1 th1 r1 := by
  by_contra hcon
  obtain ⟨u, c, hs, ht⟩ := disjoint_boxes_separated x0 th0 r0 x1 th1 r1 hcon
  obtain ⟨z0, hz0, e0⟩ := box_extreme x0 th0 r0 u h0x h0y
  obtain ⟨z1, hz1, e1⟩ := box_extreme x1 th1 r1 (-u) h1x h1y
  have k0 : u.dot z0 < c := hs z0 hz0
  have k1 : c < u.dot z1 := ht z1 hz1
  have hneg : ∀ w : V2 ℝ, (-u).dot w = -(u.dot w) := by intro w; simp [V2.dot]; ring
  rw [hneg, hneg, hneg, hneg, abs_neg, abs_neg] at e1
  have c0 := Real.sin_sq_add_cos_sq th0
  have c1 := Real.sin_sq_add_cos_sq th1
  set R0 := rotation2D th0 with hR0
  set R1 := rotation2D th1 with hR1
  -- coordinates in the frame of the first box
  have key : u.dot x1 - u.dot x0 > |u.dot (R0.col 0)| * r0.x + |u.dot (R0.col 1)| * r0.y + (|u.dot (R1.col 0)| * r1.x + |u.dot (R1.col 1)| * r1.y) := by linarith
  have exp0 : ∀ a b : V2 ℝ, a.dot b = a.dot (R0.col 0) * b.dot (R0.col 0) + a.dot (R0.col 1) * b.dot (R0.col 1) := by
    intro a b
    simp [V2.dot, hR0, rotation2D, M22.col]
    linear_combination (-(a.x * b.x + a.y * b.y)) * c0
  have hC : (R0.col 0).dot (R1.col 0) = (R0.col 1).dot (R1.col 1) := by simp [V2.dot, hR0, hR1, rotation2D, M22.col]; ring
  have hS : (R0.col 0).dot (R1.col 1) = -(R0.col 1).dot (R1.col 0) := by simp [V2.dot, hR0, hR1, rotation2D, M22.col]
  have hCS : ((R0.col 0).dot (R1.col 0)) ^ 2 + ((R0.col 1).dot (R1.col 0)) ^ 2 = 1 := by
    have := exp0 (R1.col 0) (R1.col 0)
    rw [rot_col00] at this
    rw [dot_comm2 (R0.col 0), dot_comm2 (R0.col 1), this]; ring
  set C := (R0.col 0).dot (R1.col 0) with hCd
  set S := (R0.col 1).dot (R1.col 0) with hSd
  have f0 : ∀ a : V2 ℝ, a.dot (R1.col 0) = C * a.dot (R0.col 0) + S * a.dot (R0.col 1) := by
    intro a; rw [exp0 a (R1.col 0), dot_comm2 (R1.col 0), dot_comm2 (R1.col 0), ← hCd, ← hSd]; ring
  have f1 : ∀ a : V2 ℝ, a.dot (R1.col 1) = -S * a.dot (R0.col 0) + C * a.dot (R0.col 1) := by
    intro a; rw [exp0 a (R1.col 1), dot_comm2 (R1.col 1), dot_comm2 (R1.col 1), ← hC, hS]; ring
  have hup : u.dot x1 - u.dot x0 = u.dot (x1 - x0) := by simp [V2.dot]; ring
  have := satCone C S (u.dot (R0.col 0)) (u.dot (R0.col 1)) ((x1 - x0).dot (R0.col 0)) ((x1 - x0).dot (R0.col 1)) r0.x r0.y r1.x r1.y hCS (by
    rw [← f0, ← f1, ← exp0, ← hup]; linarith)
  rw [← f0, ← f1] at this
  have a0 : axisPen R0 R1 x0 r0 x1 r1 (R0.col 0) ≤ 0 := h 0
  have a1 : axisPen R0 R1 x0 r0 x1 r1 (R0.col 1) ≤ 0 := h 1
  have a2 : axisPen R0 R1 x0 r0 x1 r1 (R1.col 0) ≤ 0 := h 2
  have a3 : axisPen R0 R1 x0 r0 x1 r1 (R1.col 1) ≤ 0 := h 3
  simp only [axisPen] at a0 a1 a2 a3
  rw [rot_col00, rot_col01, abs_one, abs_zero, ← hCd, hS, abs_neg, dot_comm2] at a0
  rw [rot_col11, rot_col10, abs_one, abs_zero, ← hSd, ← hC, dot_comm2] at a1
  rw [rot_col00, rot_col01, abs_one, abs_zero, dot_comm2 (R1.col 0) (R0.col 0), dot_comm2 (R1.col 0) (R0.col 1), ← hCd, ← hSd, dot_comm2] at a2
  rw [rot_col11, rot_col10, abs_one, abs_zero, dot_comm2 (R1.col 1) (R0.col 0), dot_comm2 (R1.col 1) (R0.col 1), hS, ← hC, abs_neg, dot_comm2] at a3
  rcases this with k | k | k | k <;> linarith

/-! ## Clipping the incident face -/

/-- The numbers behind the clipping: `k` and `α` are the components of the normal of the incident face along the normal and the tangent of the
reference face, `cn` and `c` those of its centre. -/
theorem clip_core (k α ran rat rbn rbt cn c pen : ℝ) (hk : 0 < k) (hkα : k ^ 2 + α ^ 2 = 1)
    (I0 : cn - rbt * |α| - ran = pen) (hpen : pen ≤ 0) (I1 : k * cn - α * c ≤ ran * k + rat * |α|)
    (I2 : |α * cn + k * c| ≤ rbt + ran * |α| + rat * k + pen) (I3 : |c - rbn * α| ≤ rat + rbn * |α| + rbt * k + pen) :
    c - k * rbt ≤ rat ∧ -rat ≤ c + k * rbt ∧
    (0 ≤ ran - (cn + (max (-rat) (c - k * rbt) - c) * α / k) ∨ 0 ≤ ran - (cn + (min rat (c + k * rbt) - c) * α / k)) := by
  have hα1 : |α| ≤ 1 := by
    rw [← sq_le_one_iff_abs_le_one]; nlinarith [sq_nonneg k]
  rcases le_total 0 α with ha | ha
  · rw [abs_of_nonneg ha] at *
    have A : c - k * rbt ≤ rat := by
      have h2 := (abs_le.mp I2).2
      have : k * (c - k * rbt - rat) ≤ 0 := by
        have e : k * (c - k * rbt - rat) = (α * cn + k * c) - (rbt + ran * α + rat * k + pen) + (1 - α) * pen + rbt * (1 - (k ^ 2 + α ^ 2)) := by
          rw [← I0]; ring
        rw [e, hkα]
        nlinarith
      by_contra hc
      nlinarith
    have B : -rat ≤ c + k * rbt := by
      have h3 := (abs_le.mp I3).1
      linarith
    refine ⟨A, B, Or.inl ?_⟩
    rcases le_total (c - k * rbt) (-rat) with h | h
    · rw [max_eq_left h]
      have : 0 ≤ (ran - (cn + (-rat - c) * α / k)) * k := by
        have e : (ran - (cn + (-rat - c) * α / k)) * k = ran * k - k * cn + (rat + c) * α := by field_simp; ring
        rw [e]; linarith
      exact nonneg_of_mul_nonneg_left this hk
    · rw [max_eq_right h]
      have e : ran - (cn + (c - k * rbt - c) * α / k) = -pen := by rw [← I0]; field_simp; ring
      rw [e]; linarith
  · rw [abs_of_nonpos ha] at *
    have A : -rat ≤ c + k * rbt := by
      have h2 := (abs_le.mp I2).1
      have : 0 ≤ k * (c + k * rbt + rat) := by
        have e : k * (c + k * rbt + rat) = (α * cn + k * c) + (rbt + ran * -α + rat * k + pen) - (1 + α) * pen - rbt * (1 - (k ^ 2 + α ^ 2)) := by
          rw [← I0]; ring
        rw [e, hkα]
        nlinarith
      by_contra hc
      nlinarith
    have B : c - k * rbt ≤ rat := by
      have h3 := (abs_le.mp I3).2
      linarith
    refine ⟨B, A, Or.inr ?_⟩
    rcases le_total rat (c + k * rbt) with h | h
    · rw [min_eq_left h]
      have : 0 ≤ (ran - (cn + (rat - c) * α / k)) * k := by
        have e : (ran - (cn + (rat - c) * α / k)) * k = ran * k - k * cn - (rat - c) * α := by field_simp; ring
        rw [e]; linarith
      exact nonneg_of_mul_nonneg_left this hk
    · rw [min_eq_right h]
      have e : ran - (cn + (c + k * rbt - c) * α / k) = -pen := by rw [← I0]; field_simp; ring
      rw [e]; linarith

/-- Two vectors that form an orthonormal basis of the plane -/
def Basis2 (a b : V2 ℝ) : Prop := a.dot a = 1 ∧ b.dot b = 1 ∧ a.dot b = 0 ∧ ∀ v w : V2 ℝ, v.dot w = v.dot a * w.dot a + v.dot b * w.dot b

theorem basis2_rot (th : ℝ) (i : Fin 2) (s : ℝ) (hs : s = 1 ∨ s = -1) : Basis2 (s • (rotation2D th).col i) ((rotation2D th).col (1 - i)) := by
  have h := Real.sin_sq_add_cos_sq th
  have hss : s * s = 1 := by rcases hs with rfl | rfl <;> norm_num
  fin_cases i
  · refine ⟨?_, ?_, ?_, ?_⟩
    · simp [V2.dot, rotation2D, M22.col]; linear_combination (Real.cos th ^ 2 + Real.sin th ^ 2) * hss + h
    · simp [V2.dot, rotation2D, M22.col]; linear_combination h
    · simp [V2.dot, rotation2D, M22.col]; ring
    · intro v w
      simp [V2.dot, rotation2D, M22.col]
      linear_combination (-(v.x * w.x + v.y * w.y)) * h - (v.x * Real.cos th + v.y * Real.sin th) * (w.x * Real.cos th + w.y * Real.sin th) * hss
  · refine ⟨?_, ?_, ?_, ?_⟩
    · simp [V2.dot, rotation2D, M22.col]; linear_combination (Real.cos th ^ 2 + Real.sin th ^ 2) * hss + h
    · simp [V2.dot, rotation2D, M22.col]; linear_combination h
    · simp [V2.dot, rotation2D, M22.col]; ring
    · intro v w
      simp [V2.dot, rotation2D, M22.col]
      linear_combination (-(v.x * w.x + v.y * w.y)) * h - (-v.x * Real.sin th + v.y * Real.cos th) * (-w.x * Real.sin th + w.y * Real.cos th) * hss

set_option maxHeartbeats 1000000 in
/-- Clipping in terms of vectors: `N`, `T` are the normal and the tangent of the reference face, `Bn`, `Bt` the axes of the incident box, `p` the
displacement from the reference box to the incident one. -/
theorem clip_vec (N T Bn Bt p : V2 ℝ) (ran rat rbn rbt pen : ℝ) (hNT : Basis2 N T) (hB : Basis2 Bn Bt) (hrat : 0 ≤ rat) (hrbt : 0 ≤ rbt)
    (hmax : |N.dot Bt| ≤ |N.dot Bn|) (hpen : pen ≤ 0)
    (J0 : N.dot p - (ran + |N.dot Bn| * rbn + |N.dot Bt| * rbt) = pen)
    (J1 : |Bn.dot p| - (|N.dot Bn| * ran + |T.dot Bn| * rat + rbn) ≤ 0)
    (J2 : |Bt.dot p| - (|N.dot Bt| * ran + |T.dot Bt| * rat + rbt) ≤ pen)
    (J3 : |T.dot p| - (rat + |T.dot Bn| * rbn + |T.dot Bt| * rbt) ≤ pen) :
    let center := p + ((if N.dot Bn < 0 then (1 : ℝ) else -1) * rbn) • Bn
    let cOnA := center.dot T
    let costheta := T.dot Bt
    let e0 := cOnA - costheta * rbt
    let e1 := cOnA + costheta * rbt
    let lo := if e0 > e1 then e1 else e0
    let hi := if e0 > e1 then e0 else e1
    let i0 := max (-rat) (min lo rat)
    let i1 := min rat (max hi (-rat))
    let point (i : ℝ) := center + ((i - cOnA) / costheta) • Bt
    (0 ≤ ran - N.dot (point i0) ∨ 0 ≤ ran - N.dot (point i1)) ∧
    ∀ i, (i = i0 ∨ i = i1) → |i| ≤ rat ∧ |(i - cOnA) / costheta| ≤ rbt ∧ T.dot (point i) = i ∧ ran - N.dot (point i) ≤ -pen := by
  intro center cOnA costheta e0 e1 lo hi i0 i1 point
  obtain ⟨hNN, hTT, hNTo, hexp⟩ := hNT
  obtain ⟨hBnn, hBtt, hBo, hexpB⟩ := hB
  set sg : ℝ := if N.dot Bn < 0 then 1 else -1 with hsg
  have hsg1 : sg = 1 ∨ sg = -1 := by rw [hsg]; split <;> simp
  have hsgk : sg * N.dot Bn = -|N.dot Bn| := by
    rw [hsg]
    split
    · rename_i h; rw [abs_of_neg h]; ring
    · rename_i h; rw [abs_of_nonneg (not_lt.mp h)]; ring
  have hsgsq : sg * sg = 1 := by rcases hsg1 with h | h <;> rw [h] <;> norm_num
  set k := |N.dot Bn| with hkd
  set α := sg * T.dot Bn with hα
  have habsα : |α| = |T.dot Bn| := by rw [hα, abs_mul]; rcases hsg1 with h | h <;> rw [h] <;> simp
  have hkk : k ^ 2 = (N.dot Bn) ^ 2 := by rw [hkd, sq_abs]
  have hkα : k ^ 2 + α ^ 2 = 1 := by
    have := hexp Bn Bn
    rw [hBnn, dot_comm2 Bn N, dot_comm2 Bn T] at this
    rw [hkk, hα]
    linear_combination (T.dot Bn) ^ 2 * hsgsq - this
  have hNB := hexpB N N
  rw [hNN] at hNB
  have hk : 0 < k := by
    rcases (abs_nonneg (N.dot Bn)).lt_or_eq with h | h
    · exact h
    · rw [← hkd] at h
      have h1 : N.dot Bn = 0 := abs_eq_zero.mp (by rw [← hkd, ← h])
      rw [← h] at hmax
      have h2 : N.dot Bt = 0 := abs_eq_zero.mp (le_antisymm hmax (abs_nonneg _))
      rw [h1, h2] at hNB; norm_num at hNB
  -- the tangent of the incident face
  set ε := N.dot Bt * α + T.dot Bt * k with hε
  have horth : -k * N.dot Bt + α * T.dot Bt = 0 := by
    have := hexp Bn Bt
    rw [hBo, dot_comm2 Bn N, dot_comm2 Bn T, dot_comm2 Bt N, dot_comm2 Bt T] at this
    have h2 : sg * (N.dot Bn * N.dot Bt + T.dot Bn * T.dot Bt) = 0 := by rw [← this]; ring
    rw [hα]
    linear_combination h2 - N.dot Bt * hsgk
  have hεα : ε * α = N.dot Bt := by rw [hε]; linear_combination N.dot Bt * hkα + k * horth
  have hεk : ε * k = T.dot Bt := by rw [hε]; linear_combination T.dot Bt * hkα - α * horth
  have hεε : ε * ε = 1 := by
    have := hexp Bt Bt
    rw [hBtt, dot_comm2 Bt N, dot_comm2 Bt T, ← hεα, ← hεk] at this
    linear_combination -(ε * ε) * hkα - this
  have hε1 : ε = 1 ∨ ε = -1 := by
    have : (ε - 1) * (ε + 1) = 0 := by linear_combination hεε
    rcases mul_eq_zero.mp this with h | h
    · left; linarith
    · right; linarith
  have hε0 : ε ≠ 0 := by rcases hε1 with h | h <;> rw [h] <;> norm_num
  have habsε : |ε| = 1 := by rcases hε1 with h | h <;> rw [h] <;> norm_num
  -- the centre of the incident face
  have hadd : ∀ v w : V2 ℝ, ∀ t : ℝ, ∀ u : V2 ℝ, u.dot (v + t • w) = u.dot v + t * u.dot w := by
    intro v w t u; simp [V2.dot]; ring
  set cn := N.dot center with hcn
  have hcnv : cn = N.dot p - k * rbn := by
    rw [hcn]; show N.dot (p + (sg * rbn) • Bn) = _
    rw [hadd]; linear_combination rbn * hsgk
  have hcv : cOnA = T.dot p + rbn * α := by
    show (p + (sg * rbn) • Bn).dot T = _
    rw [dot_comm2, hadd, hα]; ring
  have hBtN : |N.dot Bt| = |α| := by rw [← hεα, abs_mul, habsε, one_mul]
  have hBtT : |T.dot Bt| = k := by rw [← hεk, abs_mul, habsε, one_mul, abs_of_pos hk]
  have hBtp : Bt.dot p = ε * (α * cn + k * cOnA) := by
    have h1 := hexp Bt center
    rw [dot_comm2 Bt N, dot_comm2 Bt T, dot_comm2 center N, ← hεα, ← hεk] at h1
    have h2 : Bt.dot center = Bt.dot p := by
      show Bt.dot (p + (sg * rbn) • Bn) = _
      rw [hadd, dot_comm2 Bt Bn, hBo]; ring
    rw [← h2, h1]
    show ε * α * cn + ε * k * cOnA = _
    ring
  have hBnp : sg * Bn.dot p + rbn = -k * cn + α * cOnA := by
    have h1 := hexp Bn center
    rw [dot_comm2 Bn N, dot_comm2 Bn T, dot_comm2 center N] at h1
    have h2 : Bn.dot center = Bn.dot p + sg * rbn := by
      show Bn.dot (p + (sg * rbn) • Bn) = _
      rw [hadd, hBnn]; ring
    have h1' : Bn.dot center = N.dot Bn * cn + T.dot Bn * cOnA := h1
    have h3 : sg * (Bn.dot p + sg * rbn) = sg * (N.dot Bn * cn + T.dot Bn * cOnA) := by rw [← h2, h1']
    rw [hα]
    linear_combination h3 - rbn * hsgsq + cn * hsgk
  obtain ⟨A, B, D⟩ := clip_core k α ran rat rbn rbt cn cOnA pen hk hkα
    (by rw [hcnv, ← J0, hBtN]; ring) hpen
    (by
      have := neg_abs_le (sg * Bn.dot p)
      have h4 : |sg * Bn.dot p| = |Bn.dot p| := by rw [abs_mul]; rcases hsg1 with h | h <;> rw [h] <;> simp
      rw [h4] at this
      rw [habsα]
      linarith [J1, hBnp, this, mul_comm ran k, mul_comm rat |T.dot Bn|])
    (by rw [hBtp, abs_mul, habsε, one_mul, hBtN, hBtT] at J2; linarith)
    (by rw [hcv, habsα]; rw [hBtT] at J3; have e : T.dot p + rbn * α - rbn * α = T.dot p := by ring
        rw [e]; linarith)
  have hct : costheta = ε * k := hεk.symm
  have hlo : lo = cOnA - k * rbt := by
    show (if cOnA - costheta * rbt > cOnA + costheta * rbt then cOnA + costheta * rbt else cOnA - costheta * rbt) = _
    rw [hct]
    have hkr : 0 ≤ k * rbt := mul_nonneg hk.le hrbt
    rcases hε1 with h | h
    · rw [h, if_neg (by linarith)]; ring
    · rw [h]
      split
      · ring
      · rename_i hh; have : k * rbt = 0 := by linarith
        linarith
  have hhi : hi = cOnA + k * rbt := by
    show (if cOnA - costheta * rbt > cOnA + costheta * rbt then cOnA - costheta * rbt else cOnA + costheta * rbt) = _
    rw [hct]
    have hkr : 0 ≤ k * rbt := mul_nonneg hk.le hrbt
    rcases hε1 with h | h
    · rw [h, if_neg (by linarith)]; ring
    · rw [h]
      split
      · ring
      · rename_i hh; have : k * rbt = 0 := by linarith
        linarith
  have hi0 : i0 = max (-rat) (cOnA - k * rbt) := by show max (-rat) (min lo rat) = _; rw [hlo, min_eq_left A]
  have hi1 : i1 = min rat (cOnA + k * rbt) := by show min rat (max hi (-rat)) = _; rw [hhi, max_eq_left B]
  have hdepth : ∀ i, N.dot (point i) = cn + (i - cOnA) * α / k := by
    intro i
    show N.dot (center + ((i - cOnA) / costheta) • Bt) = _
    rw [hadd, hct, ← hεα, ← hcn]
    field_simp
  have hT : ∀ i, T.dot (point i) = i := by
    intro i
    show T.dot (center + ((i - cOnA) / costheta) • Bt) = _
    rw [hadd, dot_comm2 T center]
    show cOnA + ((i - cOnA) / costheta) * costheta = i
    have : costheta ≠ 0 := by rw [hct]; exact mul_ne_zero hε0 hk.ne'
    field_simp; ring
  refine ⟨?_, ?_⟩
  · rw [hdepth, hdepth, hi0, hi1]; exact D
  · intro i hi'
    have hkr : 0 ≤ k * rbt := mul_nonneg hk.le hrbt
    have r : -rat ≤ i ∧ i ≤ rat ∧ cOnA - k * rbt ≤ i ∧ i ≤ cOnA + k * rbt := by
      rcases hi' with h | h
      · rw [h, hi0]
        exact ⟨le_max_left _ _, max_le (by linarith) A, le_max_right _ _, max_le B (by linarith)⟩
      · rw [h, hi1]
        exact ⟨le_min (by linarith) B, min_le_left _ _, le_min A (by linarith), min_le_right _ _⟩
    have hl : |(i - cOnA) / costheta| ≤ rbt := by
      rw [abs_div, hct, abs_mul, habsε, one_mul, abs_of_pos hk, div_le_iff₀ hk]
      rw [abs_le]; constructor <;> linarith [r.2.2.1, r.2.2.2]
    refine ⟨abs_le.mpr ⟨r.1, r.2.1⟩, hl, hT i, ?_⟩
    rw [hdepth]
    have : |(i - cOnA) * α / k| ≤ rbt * |α| := by
      have e : (i - cOnA) * α / k = ((i - cOnA) / k) * α := by ring
      rw [e, abs_mul]
      apply mul_le_mul_of_nonneg_right _ (abs_nonneg _)
      rw [abs_div, abs_of_pos hk, div_le_iff₀ hk, abs_le]
      constructor <;> linarith [r.2.2.1, r.2.2.2]
    have h5 := (abs_le.mp this).1
    rw [hBtN] at J0
    rw [hcnv]
    linarith

theorem mem_box_iff (x : V2 ℝ) (th : ℝ) (r z : V2 ℝ) (i : Fin 2) :
    z ∈ boxSet x th r ↔ |(z - x).dot ((rotation2D th).col i)| ≤ r.coeff i ∧ |(z - x).dot ((rotation2D th).col (1 - i))| ≤ r.coeff (1 - i) := by
  have h := Real.sin_sq_add_cos_sq th
  have main : z ∈ boxSet x th r ↔ |(z - x).dot ((rotation2D th).col 0)| ≤ r.x ∧ |(z - x).dot ((rotation2D th).col 1)| ≤ r.y := by
    constructor
    · rintro ⟨a, b, ha, hb, rfl⟩
      have e0 : ((⟨x.x + a * Real.cos th - b * Real.sin th, x.y + a * Real.sin th + b * Real.cos th⟩ : V2 ℝ) - x).dot ((rotation2D th).col 0) = a := by
        simp [V2.dot, rotation2D, M22.col]; linear_combination a * h
      have e1 : ((⟨x.x + a * Real.cos th - b * Real.sin th, x.y + a * Real.sin th + b * Real.cos th⟩ : V2 ℝ) - x).dot ((rotation2D th).col 1) = b := by
        simp [V2.dot, rotation2D, M22.col]; linear_combination b * h
      rw [e0, e1]; exact ⟨ha, hb⟩
    · rintro ⟨ha, hb⟩
      refine ⟨_, _, ha, hb, ?_⟩
      ext
      · simp [V2.dot, rotation2D, M22.col]; linear_combination (-(z.x - x.x)) * h
      · simp [V2.dot, rotation2D, M22.col]; linear_combination (-(z.y - x.y)) * h
  rw [main]
  fin_cases i
  · exact Iff.rfl
  · exact and_comm

theorem sum_cols (R : M22) (r v : V2 ℝ) (i : Fin 2) :
    |v.dot (R.col 0)| * r.x + |v.dot (R.col 1)| * r.y = |v.dot (R.col i)| * r.coeff i + |v.dot (R.col (1 - i))| * r.coeff (1 - i) := by
  fin_cases i
  · rfl
  · exact add_comm _ _

theorem rot_col_self (th : ℝ) (i : Fin 2) : ((rotation2D th).col i).dot ((rotation2D th).col i) = 1 := by
  fin_cases i
  · exact rot_col00 th
  · exact rot_col11 th

theorem rot_col_other (th : ℝ) (i : Fin 2) : ((rotation2D th).col i).dot ((rotation2D th).col (1 - i)) = 0 := by
  fin_cases i
  · exact rot_col01 th
  · exact rot_col10 th

theorem col_mem_axes (R0 R1 : M22) (i : Fin 2) : (∃ j, satAxis R0 R1 j = R0.col i) ∧ (∃ j, satAxis R0 R1 j = R1.col i) := by
  fin_cases i
  · exact ⟨⟨0, rfl⟩, ⟨2, rfl⟩⟩
  · exact ⟨⟨1, rfl⟩, ⟨3, rfl⟩⟩

theorem coeff_nonneg (r : V2 ℝ) (hx : 0 ≤ r.x) (hy : 0 ≤ r.y) (i : Fin 2) : 0 ≤ r.coeff i := by
  fin_cases i
  · exact hx
  · exact hy

set_option maxHeartbeats 1000000 in
/-- The contact points: at least one, at most two; each is half way between a point of the reference box and a point of the incident box that lies
behind it along the normal. -/
theorem boxBoxPoints_spec (tha thb : ℝ) (xa ra xb rb : V2 ℝ) (na : Fin 2) (s : ℝ) (hs : s = 1 ∨ s = -1) (hax : 0 ≤ ra.x) (hay : 0 ≤ ra.y)
    (hbx : 0 ≤ rb.x) (hby : 0 ≤ rb.y) (hN : 0 ≤ (s • (rotation2D tha).col na).dot (xb - xa)) (pen : ℝ)
    (hpen : pen = axisPen (rotation2D tha) (rotation2D thb) xa ra xb rb ((rotation2D tha).col na)) (hpen0 : pen ≤ 0)
    (hmax : ∀ j, axisPen (rotation2D tha) (rotation2D thb) xa ra xb rb (satAxis (rotation2D tha) (rotation2D thb) j) ≤ pen) :
    let N := s • (rotation2D tha).col na
    let pts := boxBoxPoints (rotation2D tha) (rotation2D thb) xa ra xb rb na N
    pts ≠ [] ∧ pts.length ≤ 2 ∧ ∀ q ∈ pts, ∃ za ∈ boxSet xa tha ra, ∃ zb ∈ boxSet xb thb rb, ∃ depth : ℝ, 0 ≤ depth ∧ depth ≤ -pen ∧
      za = zb + depth • N ∧ q = (1 / 2 : ℝ) • (za + zb) := by
  intro N pts
  set Ra := rotation2D tha with hRa
  set Rb := rotation2D thb with hRb
  have hsabs : |s| = 1 := by rcases hs with rfl | rfl <;> norm_num
  have hNdot : ∀ v : V2 ℝ, N.dot v = s * (Ra.col na).dot v := by intro v; show (s • Ra.col na).dot v = _; simp [V2.dot]; ring
  have hNabs : ∀ v : V2 ℝ, |N.dot v| = |(Ra.col na).dot v| := by intro v; rw [hNdot, abs_mul, hsabs, one_mul]
  have hcoef : ∀ i, (Rb.transpose.mulVec N).coeff i = N.dot (Rb.col i) := by
    intro i
    fin_cases i
    · show Rb.m00 * N.x + Rb.m10 * N.y = N.x * Rb.m00 + N.y * Rb.m10; ring
    · show Rb.m01 * N.x + Rb.m11 * N.y = N.x * Rb.m01 + N.y * Rb.m11; ring
  have hxc : (Rb.transpose.mulVec N).x = N.dot (Rb.col 0) := hcoef 0
  have hyc : (Rb.transpose.mulVec N).y = N.dot (Rb.col 1) := hcoef 1
  obtain ⟨nb, hnb, hle⟩ : ∃ nb : Fin 2, (if |(Rb.transpose.mulVec N).y| > |(Rb.transpose.mulVec N).x| then (1 : Fin 2) else 0) = nb ∧
      |N.dot (Rb.col (1 - nb))| ≤ |N.dot (Rb.col nb)| := by
    rw [hxc, hyc]
    by_cases h : |N.dot (Rb.col 1)| > |N.dot (Rb.col 0)|
    · exact ⟨1, by rw [if_pos h], h.le⟩
    · exact ⟨0, by rw [if_neg h], not_lt.mp h⟩
  have ax : ∀ v, axisPen Ra Rb xa ra xb rb v = |v.dot (xb - xa)| - (|v.dot (Ra.col na)| * ra.coeff na + |v.dot (Ra.col (1 - na))| * ra.coeff (1 - na) +
      (|v.dot (Rb.col nb)| * rb.coeff nb + |v.dot (Rb.col (1 - nb))| * rb.coeff (1 - nb))) := by
    intro v
    rw [axisPen, ← sum_cols Ra ra v na, ← sum_cols Rb rb v nb]; ring
  have hm : ∀ v, (∃ j, satAxis Ra Rb j = v) → axisPen Ra Rb xa ra xb rb v ≤ pen := by
    rintro v ⟨j, rfl⟩; exact hmax j
  have pT := hm _ (col_mem_axes Ra Rb (1 - na)).1
  have pBn := hm _ (col_mem_axes Ra Rb nb).2
  have pBt := hm _ (col_mem_axes Ra Rb (1 - nb)).2
  have hs11 : (1 : Fin 2) - (1 - na) = na := by fin_cases na <;> rfl
  have hs11b : (1 : Fin 2) - (1 - nb) = nb := by fin_cases nb <;> rfl
  have o1 := rot_col_other tha (1 - na)
  rw [hs11] at o1
  have o2 := rot_col_other thb (1 - nb)
  rw [hs11b] at o2
  rw [ax, rot_col_self, rot_col_other, abs_one, abs_zero] at hpen
  rw [ax, o1, rot_col_self, abs_one, abs_zero] at pT
  rw [ax, rot_col_self, rot_col_other, abs_one, abs_zero] at pBn
  rw [ax, o2, rot_col_self, abs_one, abs_zero] at pBt
  have hNp : |(Ra.col na).dot (xb - xa)| = N.dot (xb - xa) := by rw [← hNabs, abs_of_nonneg hN]
  have hcl := clip_vec N (Ra.col (1 - na)) (Rb.col nb) (Rb.col (1 - nb)) (xb - xa) (ra.coeff na) (ra.coeff (1 - na)) (rb.coeff nb) (rb.coeff (1 - nb)) pen
    (basis2_rot tha na s hs) (by have := basis2_rot thb nb 1 (Or.inl rfl); rwa [show ((1 : ℝ) • (rotation2D thb).col nb) = (rotation2D thb).col nb from by ext <;> simp] at this)
    (coeff_nonneg ra hax hay _) (coeff_nonneg rb hbx hby _) hle hpen0
    (by rw [hpen, hNp, hNabs, hNabs]; ring)
    (by rw [dot_comm2 (Rb.col nb) (Ra.col na), dot_comm2 (Rb.col nb) (Ra.col (1 - na))] at pBn; rw [hNabs]; linarith)
    (by rw [dot_comm2 (Rb.col (1 - nb)) (Ra.col na), dot_comm2 (Rb.col (1 - nb)) (Ra.col (1 - na))] at pBt; rw [hNabs]; linarith)
    (by linarith)
  have hNN : N.dot N = 1 := (basis2_rot tha na s hs).1
  have hNT : N.dot (Ra.col (1 - na)) = 0 := (basis2_rot tha na s hs).2.2.1
  -- unfold the model
  have hpts : pts = boxBoxPoints Ra Rb xa ra xb rb na N := rfl
  unfold boxBoxPoints at hpts
  simp only [hnb, hcoef] at hpts
  simp only at hcl
  set center := xb - xa + ((if N.dot (Rb.col nb) < 0 then (1 : ℝ) else -1) * rb.coeff nb) • Rb.col nb with hcenter
  set cOnA := center.dot (Ra.col (1 - na))
  set costheta := (Ra.col (1 - na)).dot (Rb.col (1 - nb))
  set lo := if cOnA - costheta * rb.coeff (1 - nb) > cOnA + costheta * rb.coeff (1 - nb) then cOnA + costheta * rb.coeff (1 - nb) else cOnA - costheta * rb.coeff (1 - nb)
  set hi := if cOnA - costheta * rb.coeff (1 - nb) > cOnA + costheta * rb.coeff (1 - nb) then cOnA - costheta * rb.coeff (1 - nb) else cOnA + costheta * rb.coeff (1 - nb)
  set i0 := max (-ra.coeff (1 - na)) (min lo (ra.coeff (1 - na)))
  set i1 := min (ra.coeff (1 - na)) (max hi (-ra.coeff (1 - na)))
  obtain ⟨hone, hall⟩ := hcl
  -- one contact point
  have hcontact : ∀ i, (i = i0 ∨ i = i1) → ∀ q ∈ (if ra.coeff na - N.dot (center + ((i - cOnA) / costheta) • Rb.col (1 - nb)) ≥ 0 then
      [xa + (center + ((i - cOnA) / costheta) • Rb.col (1 - nb)) +
        ((1 / 2) * (ra.coeff na - N.dot (center + ((i - cOnA) / costheta) • Rb.col (1 - nb)))) • N] else []),
      ∃ za ∈ boxSet xa tha ra, ∃ zb ∈ boxSet xb thb rb, ∃ depth : ℝ, 0 ≤ depth ∧ depth ≤ -pen ∧ za = zb + depth • N ∧ q = (1 / 2 : ℝ) • (za + zb) := by
    intro i hi' q hq
    obtain ⟨c1, c2, c3, c4⟩ := hall i hi'
    set point := center + ((i - cOnA) / costheta) • Rb.col (1 - nb) with hpoint
    set depth := ra.coeff na - N.dot point with hdepth
    by_cases hd : depth ≥ 0
    · rw [if_pos hd, List.mem_singleton] at hq
      refine ⟨xa + point + depth • N, ?_, xa + point, ?_, depth, hd, c4, rfl, ?_⟩
      · rw [mem_box_iff _ _ _ _ na]
        have e : xa + point + depth • N - xa = point + depth • N := by ext <;> simp <;> ring
        rw [e]
        constructor
        · rw [dot_comm2, ← hNabs]
          have : N.dot (point + depth • N) = ra.coeff na := by
            have h1 : N.dot (point + depth • N) = N.dot point + depth * N.dot N := by simp [V2.dot]; ring
            rw [h1, hNN, hdepth]; ring
          rw [this, abs_of_nonneg (coeff_nonneg ra hax hay _)]
        · have h1 : (point + depth • N).dot (Ra.col (1 - na)) = (Ra.col (1 - na)).dot point + depth * N.dot (Ra.col (1 - na)) := by simp [V2.dot]; ring
          rw [← hRa, h1, hNT, c3, mul_zero, add_zero]
          exact c1
      · rw [mem_box_iff _ _ _ _ nb]
        set sg : ℝ := if N.dot (Rb.col nb) < 0 then 1 else -1 with hsg
        have hsga : |sg| = 1 := by rw [hsg]; split <;> norm_num
        have e : xa + point - xb = (sg * rb.coeff nb) • Rb.col nb + ((i - cOnA) / costheta) • Rb.col (1 - nb) := by
          rw [hpoint, hcenter]; ext <;> simp <;> ring
        rw [e, ← hRb]
        constructor
        · have h1 : ((sg * rb.coeff nb) • Rb.col nb + ((i - cOnA) / costheta) • Rb.col (1 - nb)).dot (Rb.col nb) =
              (sg * rb.coeff nb) * (Rb.col nb).dot (Rb.col nb) + ((i - cOnA) / costheta) * (Rb.col (1 - nb)).dot (Rb.col nb) := by simp [V2.dot]; ring
          rw [h1, rot_col_self, o2, mul_one, mul_zero, add_zero, abs_mul, hsga, one_mul, abs_of_nonneg (coeff_nonneg rb hbx hby _)]
        · have h1 : ((sg * rb.coeff nb) • Rb.col nb + ((i - cOnA) / costheta) • Rb.col (1 - nb)).dot (Rb.col (1 - nb)) =
              (sg * rb.coeff nb) * (Rb.col nb).dot (Rb.col (1 - nb)) + ((i - cOnA) / costheta) * (Rb.col (1 - nb)).dot (Rb.col (1 - nb)) := by simp [V2.dot]; ring
          rw [h1, rot_col_self, rot_col_other, mul_one, mul_zero, zero_add]
          exact c2
      · rw [hq]; ext <;> simp <;> ring
    · rw [if_neg hd] at hq; simp at hq
  have hlen : ∀ i, (if ra.coeff na - N.dot (center + ((i - cOnA) / costheta) • Rb.col (1 - nb)) ≥ 0 then
      [xa + (center + ((i - cOnA) / costheta) • Rb.col (1 - nb)) +
        ((1 / 2) * (ra.coeff na - N.dot (center + ((i - cOnA) / costheta) • Rb.col (1 - nb)))) • N] else []).length ≤ 1 := by
    intro i; split <;> simp
  by_cases hne : i0 ≠ i1
  · rw [if_pos hne] at hpts
    rw [hpts]
    refine ⟨?_, ?_, ?_⟩
    · rcases hone with h | h
      · rw [if_pos h]; simp
      · rw [if_pos h]; simp
    · rw [List.length_append]; exact Nat.add_le_add (hlen i0) (hlen i1)
    · intro q hq
      rcases List.mem_append.mp hq with h | h
      · exact hcontact i0 (Or.inl rfl) q h
      · exact hcontact i1 (Or.inr rfl) q h
  · rw [if_neg hne] at hpts
    rw [hpts]
    have heq : i0 = i1 := not_not.mp hne
    refine ⟨?_, le_trans (hlen i0) (by norm_num), hcontact i0 (Or.inl rfl)⟩
    rcases hone with h | h
    · rw [if_pos h]; simp
    · rw [← heq] at h; rw [if_pos h]; simp

theorem boxSet_translate (x v : V2 ℝ) (th : ℝ) (r z : V2 ℝ) : z ∈ boxSet (x + v) th r ↔ z - v ∈ boxSet x th r := by
  rw [mem_box_iff _ _ _ _ 0, mem_box_iff _ _ _ _ 0]
  have : z - (x + v) = z - v - x := by ext <;> simp <;> ring
  rw [this]

theorem feature_axis (R0 R1 : M22) (f : Fin 4) :
    (f.val ≤ 1 → satAxis R0 R1 f = R0.col (if f = 0 then 0 else 1)) ∧ (¬ f.val ≤ 1 → satAxis R0 R1 f = R1.col (if f = 2 then 0 else 1)) := by
  fin_cases f
  · exact ⟨fun _ => rfl, fun h => absurd (by norm_num) h⟩
  · exact ⟨fun _ => rfl, fun h => absurd (by norm_num) h⟩
  · exact ⟨fun h => absurd h (by norm_num), fun _ => rfl⟩
  · exact ⟨fun h => absurd h (by norm_num), fun _ => rfl⟩

/-- What the test returns -/
theorem boxBoxIsActive_spec (x0 : V2 ℝ) (th0 : ℝ) (r0 x1 : V2 ℝ) (th1 : ℝ) (r1 n0 : V2 ℝ) (given : List (V2 ℝ)) (h0x : 0 ≤ r0.x) (h0y : 0 ≤ r0.y)
    (h1x : 0 ≤ r1.x) (h1y : 0 ≤ r1.y) :
    let R0 := rotation2D th0
    let R1 := rotation2D th1
    (boxBoxIsActive x0 th0 r0 x1 th1 r1 n0 given = .ok (n0, given) ∧ ∃ i, 0 < axisPen R0 R1 x0 r0 x1 r1 (satAxis R0 R1 i)) ∨
    (∃ (n : V2 ℝ) (pts : List (V2 ℝ)) (f : Fin 4) (s : ℝ), boxBoxIsActive x0 th0 r0 x1 th1 r1 n0 given = .ok (n, given ++ pts) ∧ pts ≠ [] ∧ pts.length ≤ 2 ∧ (s = 1 ∨ s = -1) ∧ n = s • satAxis R0 R1 f ∧
      n.dot (x1 - x0) ≤ 0 ∧ (∀ i, axisPen R0 R1 x0 r0 x1 r1 (satAxis R0 R1 i) ≤ axisPen R0 R1 x0 r0 x1 r1 (satAxis R0 R1 f)) ∧
      axisPen R0 R1 x0 r0 x1 r1 (satAxis R0 R1 f) ≤ 0 ∧
      ∀ q ∈ pts, ∃ z0 ∈ boxSet x0 th0 r0, ∃ z1 ∈ boxSet x1 th1 r1, ∃ depth : ℝ, 0 ≤ depth ∧ depth ≤ -axisPen R0 R1 x0 r0 x1 r1 (satAxis R0 R1 f) ∧
        z1 = z0 + depth • n ∧ q = (1 / 2 : ℝ) • (z0 + z1)) := by
  intro R0 R1
  rcases boxBoxSeparatingAxes_spec th0 th1 x0 r0 x1 r1 with ⟨h, hi⟩ | ⟨st, f, h, hf, hinv, hmax⟩
  · left
    refine ⟨?_, hi⟩
    unfold boxBoxIsActive
    simp only [h]
  · right
    obtain ⟨s, hs, hsv, hsd⟩ : ∃ s : ℝ, (s = 1 ∨ s = -1) ∧ (∀ v : V2 ℝ, (if st.invert = true then (-1 : ℝ) • v else v) = s • v) ∧
        0 ≤ s * (satAxis R0 R1 f).dot (x1 - x0) := by
      rw [hinv]
      by_cases hneg : (satAxis R0 R1 f).dot (x1 - x0) < 0
      · refine ⟨-1, Or.inr rfl, fun v => ?_, ?_⟩
        · rw [if_pos (decide_eq_true hneg)]
        · linarith
      · refine ⟨1, Or.inl rfl, fun v => ?_, ?_⟩
        · rw [if_neg (by simpa using hneg)]; ext <;> simp
        · rw [one_mul]; exact not_lt.mp hneg
    have hms : ∀ a b : ℝ, ∀ v : V2 ℝ, a • b • v = (a * b) • v := by intro a b v; ext <;> simp <;> ring
    have hsm : ∀ a : ℝ, ∀ v w : V2 ℝ, (a • v).dot w = a * v.dot w := by intro a v w; simp [V2.dot]; ring
    have hres : boxBoxIsActive x0 th0 r0 x1 th1 r1 n0 given = .ok ((-s) • satAxis R0 R1 f, given ++
        (if f.val ≤ 1 then boxBoxPoints R0 R1 x0 r0 x1 r1 (if f = 0 then 0 else 1) (s • satAxis R0 R1 f)
         else boxBoxPoints R1 R0 x1 r1 x0 r0 (if f = 2 then 0 else 1) ((-s) • satAxis R0 R1 f))) := by
      unfold boxBoxIsActive
      simp only [h, hf, hsv]
      by_cases h1 : f.val ≤ 1
      · rw [(feature_axis R0 R1 f).1 h1]
        simp only [decide_eq_true h1, if_true, if_pos h1]
        rw [hms]
        simp [R0, R1]
      · rw [(feature_axis R0 R1 f).2 h1]
        simp only [decide_eq_false h1, if_neg h1]
        rw [hms]
        have : -(s • (rotation2D th1).col (if f = 2 then 0 else 1)) = (-s) • (rotation2D th1).col (if f = 2 then 0 else 1) := by ext <;> simp
        simp [R0, R1, this]
    have hms' : -s = 1 ∨ -s = -1 := by rcases hs with h | h <;> rw [h] <;> norm_num
    refine ⟨_, _, f, -s, hres, ?_⟩
    have hnd : ((-s) • satAxis R0 R1 f).dot (x1 - x0) ≤ 0 := by rw [hsm]; linarith
    by_cases h1 : f.val ≤ 1
    · simp only [if_pos h1]
      have hax := (feature_axis R0 R1 f).1 h1
      obtain ⟨p1, p2, p3⟩ := boxBoxPoints_spec th0 th1 x0 r0 x1 r1 (if f = 0 then 0 else 1) s hs h0x h0y h1x h1y
        (by rw [← hax, hsm]; exact hsd) (axisPen R0 R1 x0 r0 x1 r1 (satAxis R0 R1 f)) (by rw [hax]) ((hmax f).2) (fun j => (hmax j).1)
      rw [hax]
      rw [hax] at hnd hmax
      refine ⟨p1, p2, hms', trivial, hnd, fun i => (hmax i).1, ?_, ?_⟩
      · have := (hmax f).2; rwa [hax] at this
      · intro q hq
        obtain ⟨za, hza, zb, hzb, d, hd, hd', e1, e2⟩ := p3 q hq
        refine ⟨za, hza, zb, hzb, d, hd, by rw [hax] at hd'; exact hd', ?_, e2⟩
        rw [e1]; ext <;> simp [R0]
    · simp only [if_neg h1]
      have hax := (feature_axis R0 R1 f).2 h1
      have hsw : ∀ v, axisPen R1 R0 x1 r1 x0 r0 v = axisPen R0 R1 x0 r0 x1 r1 v := fun v => (axisPen_swap _ _ _ _ _ _ _).symm
      have hperm : ∀ j, ∃ j', satAxis R1 R0 j = satAxis R0 R1 j' := by
        intro j
        fin_cases j
        · exact ⟨2, rfl⟩
        · exact ⟨3, rfl⟩
        · exact ⟨0, rfl⟩
        · exact ⟨1, rfl⟩
      obtain ⟨p1, p2, p3⟩ := boxBoxPoints_spec th1 th0 x1 r1 x0 r0 (if f = 2 then 0 else 1) (-s) hms' h1x h1y h0x h0y
        (by
          rw [← hax, hsm]
          have : (satAxis R0 R1 f).dot (x0 - x1) = -(satAxis R0 R1 f).dot (x1 - x0) := by simp [V2.dot]; ring
          rw [this]; linarith) (axisPen R0 R1 x0 r0 x1 r1 (satAxis R0 R1 f)) (by rw [hsw, hax]) ((hmax f).2)
        (fun j => by rw [hsw]; obtain ⟨j', hj'⟩ := hperm j; rw [hj']; exact (hmax j').1)
      rw [hax]
      rw [hax] at hnd hmax
      refine ⟨p1, p2, hms', trivial, hnd, fun i => (hmax i).1, ?_, ?_⟩
      · have := (hmax f).2; rwa [hax] at this
      · intro q hq
        obtain ⟨za, hza, zb, hzb, d, hd, hd', e1, e2⟩ := p3 q hq
        refine ⟨zb, hzb, za, hza, d, hd, by rw [hax] at hd'; exact hd', e1, ?_⟩
        rw [e2]; ext <;> simp <;> ring

/-! ## C46 -/

/-- **C46** The box-box test always returns; it reports contact points exactly when the boxes share a point, and when it reports none there is a line
that strictly separates them. -/
theorem C46_exact (x0 : V2 ℝ) (theta0 : ℝ) (r0 x1 : V2 ℝ) (theta1 : ℝ) (r1 n0 : V2 ℝ) (h0x : 0 ≤ r0.x) (h0y : 0 ≤ r0.y) (h1x : 0 ≤ r1.x) (h1y : 0 ≤ r1.y) :
    ∃ n pts, boxBoxIsActive x0 theta0 r0 x1 theta1 r1 n0 [] = .ok (n, pts) ∧
      (pts ≠ [] ↔ ∃ z, z ∈ boxSet x0 theta0 r0 ∧ z ∈ boxSet x1 theta1 r1) ∧
      (pts = [] → ∃ u c, SeparatedBy u c (boxSet x0 theta0 r0) (boxSet x1 theta1 r1)) := by
  rcases boxBoxIsActive_spec x0 theta0 r0 x1 theta1 r1 n0 [] h0x h0y h1x h1y with ⟨h, i, hi⟩ | ⟨n, pts, f, s, h, hne, _, _, _, _, hmax, hle, _⟩
  · have hsep := separated_of_axisPen x0 theta0 r0 x1 theta1 r1 _ hi
    refine ⟨n0, [], h, ?_, fun _ => hsep⟩
    have := not_share_of_separated _ _ hsep
    simp only [ne_eq, not_true_eq_false, false_iff]
    exact this
  · refine ⟨n, pts, by simpa using h, ?_, fun hh => absurd hh hne⟩
    simp only [hne, ne_eq, not_false_iff, true_iff]
    exact share_of_axisPen x0 theta0 r0 x1 theta1 r1 h0x h0y h1x h1y (fun i => le_trans (hmax i) hle)

/-- **C46** When contact is reported, the normal is a unit vector along which the first box leaves the second one, by a depth that is the least that any
direction needs: moved by more than it along the normal, the boxes are apart; moved by any vector that is shorter, they still share a point. There
are at most two contact points, and each lies half way between a point of the first box and a point of the second one that are apart by no more
than the depth, along the normal. -/
theorem C46_penetration (x0 : V2 ℝ) (theta0 : ℝ) (r0 x1 : V2 ℝ) (theta1 : ℝ) (r1 n0 n : V2 ℝ) (pts : List (V2 ℝ)) (h0x : 0 ≤ r0.x) (h0y : 0 ≤ r0.y)
    (h1x : 0 ≤ r1.x) (h1y : 0 ≤ r1.y) (h : boxBoxIsActive x0 theta0 r0 x1 theta1 r1 n0 [] = .ok (n, pts)) (hne : pts ≠ []) :
    n.x ^ 2 + n.y ^ 2 = 1 ∧ pts.length ≤ 2 ∧ ∃ D : ℝ, 0 ≤ D ∧
      (∀ e > D, ¬ ∃ z, z ∈ boxSet (x0 + e • n) theta0 r0 ∧ z ∈ boxSet x1 theta1 r1) ∧
      (∀ v : V2 ℝ, v.x ^ 2 + v.y ^ 2 ≤ D ^ 2 → ∃ z, z ∈ boxSet (x0 + v) theta0 r0 ∧ z ∈ boxSet x1 theta1 r1) ∧
      ∀ q ∈ pts, ∃ z0 ∈ boxSet x0 theta0 r0, ∃ z1 ∈ boxSet x1 theta1 r1, ∃ depth : ℝ, 0 ≤ depth ∧ depth ≤ D ∧
        z1 = z0 + depth • n ∧ q = (1 / 2 : ℝ) • (z0 + z1) := by
  rcases boxBoxIsActive_spec x0 theta0 r0 x1 theta1 r1 n0 [] h0x h0y h1x h1y with ⟨h', _⟩ | ⟨n', pts', f, s, h', hne', hlen, hs, hn, hnd, hmax, hle, hq⟩
  · rw [h'] at h
    simp only [Outcome.ok.injEq, Prod.mk.injEq] at h
    exact absurd h.2.symm hne
  rw [h'] at h
  simp only [Outcome.ok.injEq, Prod.mk.injEq, List.nil_append] at h
  obtain ⟨rfl, rfl⟩ := h
  have hss : s * s = 1 := by rcases hs with rfl | rfl <;> norm_num
  have hunit : ∀ i, (satAxis (rotation2D theta0) (rotation2D theta1) i).dot (satAxis (rotation2D theta0) (rotation2D theta1) i) = 1 := by
    intro i
    fin_cases i
    · exact rot_col00 _
    · exact rot_col11 _
    · exact rot_col00 _
    · exact rot_col11 _
  have hnn : n'.dot n' = 1 := by
    have := hunit f
    rw [hn]
    have e : (s • satAxis (rotation2D theta0) (rotation2D theta1) f).dot (s • satAxis (rotation2D theta0) (rotation2D theta1) f) =
        (s * s) * (satAxis (rotation2D theta0) (rotation2D theta1) f).dot (satAxis (rotation2D theta0) (rotation2D theta1) f) := by simp [V2.dot]; ring
    rw [e, this, hss, one_mul]
  have habs : ∀ v : V2 ℝ, |(satAxis (rotation2D theta0) (rotation2D theta1) f).dot v| = |n'.dot v| := by
    intro v
    have e : n'.dot v = s * (satAxis (rotation2D theta0) (rotation2D theta1) f).dot v := by rw [hn]; simp [V2.dot]; ring
    rw [e, abs_mul]
    rcases hs with rfl | rfl <;> simp
  refine ⟨by rw [← hnn]; simp only [V2.dot]; ring, hlen, -axisPen (rotation2D theta0) (rotation2D theta1) x0 r0 x1 r1 (satAxis (rotation2D theta0) (rotation2D theta1) f),
    by linarith, fun e he => ?_, fun v hv => ?_, hq⟩
  · apply not_share_of_separated
    apply separated_of_axisPen (v := satAxis (rotation2D theta0) (rotation2D theta1) f)
    have e1 : n'.dot (x1 - (x0 + e • n')) = n'.dot (x1 - x0) - e * n'.dot n' := by simp [V2.dot]; ring
    have e2 : n'.dot (x1 - (x0 + e • n')) = n'.dot (x1 - x0) - e := by rw [e1, hnn, mul_one]
    unfold axisPen at he ⊢
    rw [habs] at he ⊢
    rw [e2]
    have he0 : 0 ≤ e := by
      unfold axisPen at hle
      rw [habs] at hle
      linarith
    rw [abs_of_nonpos hnd] at he
    rw [abs_of_nonpos (by linarith)]
    linarith
  · apply share_of_axisPen _ _ _ _ _ _ h0x h0y h1x h1y
    intro i
    have hi := hmax i
    set D := -axisPen (rotation2D theta0) (rotation2D theta1) x0 r0 x1 r1 (satAxis (rotation2D theta0) (rotation2D theta1) f) with hD
    have hD0 : 0 ≤ D := by rw [hD]; linarith
    have hcs : |(satAxis (rotation2D theta0) (rotation2D theta1) i).dot v| ≤ D := by
      apply abs_le_of_sq_le_sq _ hD0
      set a := satAxis (rotation2D theta0) (rotation2D theta1) i
      have hu := hunit i
      have e : a.dot v ^ 2 + (a.x * v.y - a.y * v.x) ^ 2 = a.dot a * (v.x ^ 2 + v.y ^ 2) := by simp only [V2.dot]; ring
      rw [hu, one_mul] at e
      nlinarith [sq_nonneg (a.x * v.y - a.y * v.x)]
    have e1 : (satAxis (rotation2D theta0) (rotation2D theta1) i).dot (x1 - (x0 + v)) =
        (satAxis (rotation2D theta0) (rotation2D theta1) i).dot (x1 - x0) + -(satAxis (rotation2D theta0) (rotation2D theta1) i).dot v := by simp [V2.dot]; ring
    have e2 := abs_add_le ((satAxis (rotation2D theta0) (rotation2D theta1) i).dot (x1 - x0)) (-(satAxis (rotation2D theta0) (rotation2D theta1) i).dot v)
    rw [abs_neg] at e2
    have : axisPen (rotation2D theta0) (rotation2D theta1) x0 r0 x1 r1 (satAxis (rotation2D theta0) (rotation2D theta1) i) ≤ -D := by rw [hD, neg_neg]; exact hi
    unfold axisPen at this ⊢
    rw [e1]
    linarith

/-- Two unit squares, half a unit deep in one another, and a pair that is apart -/
example : (∃ z, z ∈ boxSet ⟨0, 0⟩ 0 ⟨1, 1⟩ ∧ z ∈ boxSet ⟨3 / 2, 0⟩ 0 ⟨1, 1⟩) ∧ ¬ ∃ z, z ∈ boxSet ⟨0, 0⟩ 0 ⟨1, 1⟩ ∧ z ∈ boxSet ⟨3, 0⟩ 0 ⟨1, 1⟩ := by
  constructor
  · refine ⟨⟨1, 0⟩, ⟨1, 0, by norm_num, by norm_num, ?_⟩, ⟨-1 / 2, 0, by norm_num [abs_le], by norm_num, ?_⟩⟩ <;> ext <;> norm_num
  · rintro ⟨z, ⟨a, b, ha, hb, rfl⟩, ⟨a', b', ha', hb', h⟩⟩
    have := congrArg V2.x h
    simp at this
    have h1 := (abs_le.mp ha).2
    have h2 := (abs_le.mp ha').1
    norm_num at h1 h2
    linarith

end Scisim
