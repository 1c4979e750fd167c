import Verif.Lemmas.Picture3DScene
/-!
# Lemmas about the lines in the pictures of the spatial program
-/

namespace Scisim
namespace Picture3

open Matrix Real

/-! ## Areas and lines do not mix -/

/-- A primitive that covers an area -/
def Draw.Solid (d : Draw) : Prop := d.mode = .triangles ∨ d.mode = .quads

theorem Draw.Solid.no_marks {d : Draw} (h : d.Solid) (p : Vec3) : ¬d.Marks p := by
  obtain ⟨m, c, vs⟩ := d
  rcases h with rfl | rfl <;> exact id

theorem no_covers {d : Draw} (h : ¬d.Solid) (p : Vec3) : ¬d.Covers p := by
  obtain ⟨m, c, vs⟩ := d
  cases m
  · exact absurd (.inl rfl) h
  · exact absurd (.inr rfl) h
  · exact id
  · exact id

theorem solid_quarters (verts : List Vec3) (M : GlMatrix) (c e : Color) : ∀ d ∈ drawVertexArray verts M c e, d.Solid := by
  intro d hd
  simp only [drawVertexArray, List.mem_cons, List.not_mem_nil, or_false] at hd
  rcases hd with rfl | rfl | rfl | rfl <;> exact .inl rfl

theorem solid_body {g : PicGeometry} {M : GlMatrix} {c : Color} {ds : List Draw} (h : paintBody M g c = .ok ds) : ∀ d ∈ ds, d.Solid := by
  unfold paintBody at h
  split at h
  · simp only [Outcome.ok.injEq] at h
    subst h
    intro d hd
    simp only [paintBox, List.mem_singleton] at hd
    subst hd; exact .inr rfl
  · rw [paintSphere, drawSphere_ok small4] at h
    simp only [Outcome.ok.injEq] at h
    subst h
    exact solid_quarters _ _ _ _
  · rw [renderStaple_ok] at h
    simp only [Outcome.ok.injEq] at h
    subst h
    intro d hd
    simp only [staplePieces, List.mem_append] at hd
    rcases hd with (((hd | hd) | hd) | hd) | hd
    · exact solid_quarters _ _ _ _ d hd
    · exact solid_quarters _ _ _ _ d hd
    · exact solid_quarters _ _ _ _ d hd
    · exact solid_quarters _ _ _ _ d hd
    · simp only [List.mem_cons, List.not_mem_nil, or_false] at hd
      rcases hd with rfl | rfl | rfl <;> exact .inr rfl
  · unfold paintTriangleMesh at h
    obtain ⟨vs, -, h⟩ := Outcome.bind_ok_iff.mp h
    simp only [Outcome.ok.injEq] at h
    subst h
    intro d hd
    rw [List.mem_singleton] at hd
    subst hd; exact .inl rfl

theorem hollow_plane (axis : Vec3 → Vec3 → Vec3) (c : Color) (p : Plane3) (hw : ℝ × ℝ) : ∀ d ∈ drawPlane axis c p hw, ¬d.Solid := by
  intro d hd
  simp only [drawPlane, List.mem_cons, List.not_mem_nil, or_false] at hd
  rcases hd with rfl | rfl <;> simp [Draw.Solid]

theorem hollow_portal (axis : Vec3 → Vec3 → Vec3) (c : Color) (p : Portal3) (hw hw' : ℝ × ℝ) : ∀ d ∈ drawPortal axis c p hw hw', ¬d.Solid := by
  intro d hd
  rcases List.mem_append.mp hd with h | h
  · exact hollow_plane _ _ _ _ d h
  · exact hollow_plane _ _ _ _ d h

theorem hollow_cylinder (axis : Vec3 → Vec3 → Vec3) (c : PicCylinder) (L : ℝ) : ∀ d ∈ drawStaticCylinder axis c L, ¬d.Solid := by
  intro d hd
  simp only [drawStaticCylinder, List.mem_cons, List.not_mem_nil, or_false] at hd
  rcases hd with rfl | rfl | rfl <;> simp [Draw.Solid]

/-! ## Windows -/

theorem lined_cons (d : Draw) (ds : List Draw) (paint : Paint) (p : Vec3) : Lined (d :: ds) paint p ↔ (d.paint = paint ∧ d.Marks p) ∨ Lined ds paint p := by
  simp [Lined]

theorem lined_nil (paint : Paint) (p : Vec3) : ¬Lined [] paint p := by simp [Lined]

theorem lined_append (a b : List Draw) (paint : Paint) (p : Vec3) : Lined (a ++ b) paint p ↔ Lined a paint p ∨ Lined b paint p := by
  simp only [Lined, List.mem_append]
  constructor
  · rintro ⟨d, h | h, r⟩
    · exact .inl ⟨d, h, r⟩
    · exact .inr ⟨d, h, r⟩
  · rintro (⟨d, h, r⟩ | ⟨d, h, r⟩)
    · exact ⟨d, .inl h, r⟩
    · exact ⟨d, .inr h, r⟩

theorem rotate_xz (q : Quat) (a b : ℝ) : q.rotate ![a, 0, b] = a • q.rotate ![1, 0, 0] + b • q.rotate ![0, 0, 1] := by
  apply vext
  · simp only [Pi.add_apply, Pi.smul_apply, smul_eq_mul, rotate_0]; simp; ring
  · simp only [Pi.add_apply, Pi.smul_apply, smul_eq_mul, rotate_1]; simp; ring
  · simp only [Pi.add_apply, Pi.smul_apply, smul_eq_mul, rotate_2]; simp; ring

theorem rotate_xyz (q : Quat) (v : Vec3) : q.rotate v = v 0 • q.rotate ![1, 0, 0] + v 1 • q.rotate ![0, 1, 0] + v 2 • q.rotate ![0, 0, 1] := by
  apply vext
  · simp only [Pi.add_apply, Pi.smul_apply, smul_eq_mul, rotate_0]; simp; ring
  · simp only [Pi.add_apply, Pi.smul_apply, smul_eq_mul, rotate_1]; simp; ring
  · simp only [Pi.add_apply, Pi.smul_apply, smul_eq_mul, rotate_2]; simp; ring

theorem loop4 (paint : Paint) (a b c d p : Vec3) : (⟨.lineLoop, paint, [a, b, c, d]⟩ : Draw).Marks p ↔ Between a b p ∨ Between b c p ∨ Between c d p ∨ Between d a p := by
  simp only [Draw.Marks, List.length_cons, List.length_nil]
  constructor
  · rintro ⟨i, hi, h⟩
    have : i = 0 ∨ i = 1 ∨ i = 2 ∨ i = 3 := by omega
    rcases this with rfl | rfl | rfl | rfl
    · exact .inl h
    · exact .inr (.inl h)
    · exact .inr (.inr (.inl h))
    · exact .inr (.inr (.inr h))
  · rintro (h | h | h | h)
    · exact ⟨0, by norm_num, h⟩
    · exact ⟨1, by norm_num, h⟩
    · exact ⟨2, by norm_num, h⟩
    · exact ⟨3, by norm_num, h⟩

theorem lines4 (paint : Paint) (a b c d p : Vec3) : (⟨.lines, paint, [a, b, c, d]⟩ : Draw).Marks p ↔ Between a b p ∨ Between c d p := by
  simp only [Draw.Marks, List.length_cons, List.length_nil]
  constructor
  · rintro ⟨i, hi, h⟩
    have : i = 0 ∨ i = 1 := by omega
    rcases this with rfl | rfl
    · exact .inl h
    · exact .inr h
  · rintro (h | h)
    · exact ⟨0, by norm_num, h⟩
    · exact ⟨1, by norm_num, h⟩

theorem lined_plane (axis : Vec3 → Vec3 → Vec3) (c : Color) (p : Plane3) (hw : ℝ × ℝ) (paint : Paint) (q : Vec3) :
    Lined (drawPlane axis c p hw) paint q ↔ paint = .plain c ∧ q ∈ windowSet p.x (hw.1 • p.t0 axis) (hw.2 • p.t1 axis) := by
  have v : ∀ a b : ℝ, (Quat.fromTwoVectors axis ![0, 1, 0] p.n).rotate ![hw.1 * a, 0 * 0, hw.2 * b] + p.x = p.x + a • (hw.1 • p.t0 axis) + b • (hw.2 • p.t1 axis) := by
    intro a b
    rw [mul_zero, rotate_xz]
    unfold Plane3.t0 Plane3.t1
    module
  unfold drawPlane
  simp only [lined_cons, lined_nil, or_false, loop4, lines4, v]
  generalize hw.1 • p.t0 axis = e
  generalize hw.2 • p.t1 axis = f
  have one : |(1 : ℝ)| = 1 := abs_one
  have mone : |(-1 : ℝ)| = 1 := by simp
  constructor
  · have fwd : ∀ s t : ℝ, |s| ≤ 1 → |t| ≤ 1 → (|s| = 1 ∨ |t| = 1 ∨ s = 0 ∨ t = 0) → q = p.x + s • e + t • f → q ∈ windowSet p.x e f :=
      fun s t h1 h2 h3 h4 => ⟨s, t, h1, h2, h3, h4⟩
    have bd : ∀ σ : ℝ, 0 ≤ σ → σ ≤ 1 → |1 - 2 * σ| ≤ 1 ∧ |2 * σ - 1| ≤ 1 := fun σ h0 h1 => by
      constructor <;> rw [abs_le] <;> constructor <;> linarith
    rintro (⟨hc, h⟩ | ⟨hc, h⟩)
    · refine ⟨hc.symm, ?_⟩
      rcases h with ⟨σ, h0, h1, h⟩ | ⟨σ, h0, h1, h⟩ | ⟨σ, h0, h1, h⟩ | ⟨σ, h0, h1, h⟩ <;> obtain ⟨b1, b2⟩ := bd σ h0 h1
      · exact fwd (1 - 2 * σ) 1 b1 one.le (.inr (.inl one)) (by rw [h]; module)
      · exact fwd (-1) (1 - 2 * σ) mone.le b1 (.inl mone) (by rw [h]; module)
      · exact fwd (2 * σ - 1) (-1) b2 mone.le (.inr (.inl mone)) (by rw [h]; module)
      · exact fwd 1 (2 * σ - 1) one.le b2 (.inl one) (by rw [h]; module)
    · refine ⟨hc.symm, ?_⟩
      rcases h with ⟨σ, h0, h1, h⟩ | ⟨σ, h0, h1, h⟩ <;> obtain ⟨b1, b2⟩ := bd σ h0 h1
      · exact fwd 0 (1 - 2 * σ) (by simp) b1 (.inr (.inr (.inl rfl))) (by rw [h]; module)
      · exact fwd (2 * σ - 1) 0 b2 (by simp) (.inr (.inr (.inr rfl))) (by rw [h]; module)
  · rintro ⟨rfl, s, t, hs, ht, h, rfl⟩
    obtain ⟨s0, s1⟩ := abs_le.mp hs
    obtain ⟨t0, t1⟩ := abs_le.mp ht
    rcases h with h | h | h | h
    · rcases eq_or_eq_neg_of_abs_eq h with rfl | rfl
      · exact .inl ⟨rfl, .inr (.inr (.inr ⟨(t + 1) / 2, by linarith, by linarith, by module⟩))⟩
      · exact .inl ⟨rfl, .inr (.inl ⟨(1 - t) / 2, by linarith, by linarith, by module⟩)⟩
    · rcases eq_or_eq_neg_of_abs_eq h with rfl | rfl
      · exact .inl ⟨rfl, .inl ⟨(1 - s) / 2, by linarith, by linarith, by module⟩⟩
      · exact .inl ⟨rfl, .inr (.inr (.inl ⟨(s + 1) / 2, by linarith, by linarith, by module⟩))⟩
    · subst h
      exact .inr ⟨rfl, .inl ⟨(1 - t) / 2, by linarith, by linarith, by module⟩⟩
    · subst h
      exact .inr ⟨rfl, .inr ⟨(s + 1) / 2, by linarith, by linarith, by module⟩⟩

/-! ## Quaternions -/

/-- The coefficients have length one -/
def UnitQuat (q : Quat) : Prop := q.w ^ 2 + q.x ^ 2 + q.y ^ 2 + q.z ^ 2 = 1

/-- The rotation by a quaternion that need not have length one, times the square of its length -/
def conj3 (q : Quat) (v : Vec3) : Vec3 :=
  ![(q.w ^ 2 + q.x ^ 2 - q.y ^ 2 - q.z ^ 2) * v 0 + 2 * (q.x * q.y - q.w * q.z) * v 1 + 2 * (q.x * q.z + q.w * q.y) * v 2,
    2 * (q.x * q.y + q.w * q.z) * v 0 + (q.w ^ 2 - q.x ^ 2 + q.y ^ 2 - q.z ^ 2) * v 1 + 2 * (q.y * q.z - q.w * q.x) * v 2,
    2 * (q.x * q.z - q.w * q.y) * v 0 + 2 * (q.y * q.z + q.w * q.x) * v 1 + (q.w ^ 2 - q.x ^ 2 - q.y ^ 2 + q.z ^ 2) * v 2]

theorem rotate_conj {q : Quat} (h : UnitQuat q) (v : Vec3) : q.rotate v = conj3 q v := by
  unfold UnitQuat at h
  apply vext
  · rw [rotate_0]; simp [conj3]; linear_combination (-(v 0)) * h
  · rw [rotate_1]; simp [conj3]; linear_combination (-(v 1)) * h
  · rw [rotate_2]; simp [conj3]; linear_combination (-(v 2)) * h

theorem conj_mul (a b : Quat) (v : Vec3) : conj3 (quatMul a b) v = conj3 a (conj3 b v) := by
  apply vext <;> simp [conj3, quatMul] <;> ring

theorem unit_mul {a b : Quat} (ha : UnitQuat a) (hb : UnitQuat b) : UnitQuat (quatMul a b) := by
  unfold UnitQuat at *
  simp only [quatMul]
  calc _ = (a.w ^ 2 + a.x ^ 2 + a.y ^ 2 + a.z ^ 2) * (b.w ^ 2 + b.x ^ 2 + b.y ^ 2 + b.z ^ 2) := by ring
    _ = 1 := by rw [ha, hb, one_mul]

theorem rotate_mul {a b : Quat} (ha : UnitQuat a) (hb : UnitQuat b) (v : Vec3) : (quatMul a b).rotate v = a.rotate (b.rotate v) := by
  rw [rotate_conj (unit_mul ha hb), conj_mul, rotate_conj ha, rotate_conj hb]

theorem unit_angleAxis (θ : ℝ) {a : Vec3} (ha : inner3 a a = 1) : UnitQuat (quatOfAngleAxis θ a) := by
  have t := sin_sq_add_cos_sq (1 / 2 * θ)
  unfold inner3 at ha
  simp only [UnitQuat, quatOfAngleAxis]
  linear_combination t + sin (1 / 2 * θ) ^ 2 * ha

theorem half_angles (θ : ℝ) : cos θ = 1 - 2 * sin (1 / 2 * θ) ^ 2 ∧ sin θ = 2 * sin (1 / 2 * θ) * cos (1 / 2 * θ) := by
  have e : θ = 2 * (1 / 2 * θ) := by ring
  have t := sin_sq_add_cos_sq (1 / 2 * θ)
  constructor
  · conv_lhs => rw [e, cos_two_mul]
    linarith
  · conv_lhs => rw [e, sin_two_mul]

theorem cross_cross_perp {a v : Vec3} (ha : inner3 a a = 1) (hv : inner3 a v = 0) : crossProduct a (crossProduct a v) = -v := by
  unfold inner3 at *
  apply vext
  · rw [cross3_0, cross3_1, cross3_2]; simp only [Pi.neg_apply]; linear_combination a 0 * hv - v 0 * ha
  · rw [cross3_1, cross3_0, cross3_2]; simp only [Pi.neg_apply]; linear_combination a 1 * hv - v 1 * ha
  · rw [cross3_2, cross3_0, cross3_1]; simp only [Pi.neg_apply]; linear_combination a 2 * hv - v 2 * ha

theorem rotate_turned (θ : ℝ) {a v : Vec3} (ha : inner3 a a = 1) (hv : inner3 a v = 0) : (quatOfAngleAxis θ a).rotate v = turned a θ v := by
  obtain ⟨hc, hs⟩ := half_angles θ
  unfold turned
  rw [hc, hs]
  set S := sin (1 / 2 * θ) with hS
  set C := cos (1 / 2 * θ) with hC
  unfold inner3 at *
  apply vext
  · rw [rotate_0]; simp only [quatOfAngleAxis, ← hS, ← hC, Pi.add_apply, Pi.smul_apply, smul_eq_mul, cross3_0]
    linear_combination (2 * S ^ 2 * a 0) * hv - 2 * S ^ 2 * v 0 * ha
  · rw [rotate_1]; simp only [quatOfAngleAxis, ← hS, ← hC, Pi.add_apply, Pi.smul_apply, smul_eq_mul, cross3_1]
    linear_combination (2 * S ^ 2 * a 1) * hv - 2 * S ^ 2 * v 1 * ha
  · rw [rotate_2]; simp only [quatOfAngleAxis, ← hS, ← hC, Pi.add_apply, Pi.smul_apply, smul_eq_mul, cross3_2]
    linear_combination (2 * S ^ 2 * a 2) * hv - 2 * S ^ 2 * v 2 * ha

theorem rotate_self (θ : ℝ) (a : Vec3) : (quatOfAngleAxis θ a).rotate a = a := by
  apply vext
  · rw [rotate_0]; simp only [quatOfAngleAxis]; ring
  · rw [rotate_1]; simp only [quatOfAngleAxis]; ring
  · rw [rotate_2]; simp only [quatOfAngleAxis]; ring

/-- The conversion to an angle and an axis describes the same rotation, and the axis is a unit vector. -/
theorem angleAxis_spec {q : Quat} (h : UnitQuat q) (v : Vec3) :
    normalized3 (angleAxisOfQuat q).axis = (angleAxisOfQuat q).axis ∧ angleAxisMatrix (angleAxisOfQuat q).angle (angleAxisOfQuat q).axis *ᵥ v = q.rotate v := by
  unfold UnitQuat at h
  have hn0 : 0 ≤ norm3 ![q.x, q.y, q.z] := sqrt_nonneg _
  have hn : norm3 ![q.x, q.y, q.z] ^ 2 = q.x ^ 2 + q.y ^ 2 + q.z ^ 2 := by
    have : norm3 ![q.x, q.y, q.z] = sqrt (q.x * q.x + q.y * q.y + q.z * q.z) := rfl
    rw [this, sq_sqrt (by nlinarith [mul_self_nonneg q.x, mul_self_nonneg q.y, mul_self_nonneg q.z])]; ring
  unfold angleAxisOfQuat
  simp only
  set n := norm3 ![q.x, q.y, q.z] with hdef
  split
  · next h0 =>
    rw [h0] at hn
    have hx : q.x = 0 := by nlinarith [sq_nonneg q.x, sq_nonneg q.y, sq_nonneg q.z]
    have hy : q.y = 0 := by nlinarith [sq_nonneg q.x, sq_nonneg q.y, sq_nonneg q.z]
    have hz : q.z = 0 := by nlinarith [sq_nonneg q.x, sq_nonneg q.y, sq_nonneg q.z]
    refine ⟨normalized3_unit (by simp [dot3]), ?_⟩
    apply vext
    · rw [rotate_0]; simp [angleAxisMatrix, Matrix.mulVec, dotProduct, Fin.sum_univ_three, hx, hy, hz]
    · rw [rotate_1]; simp [angleAxisMatrix, Matrix.mulVec, dotProduct, Fin.sum_univ_three, hx, hy, hz]
    · rw [rotate_2]; simp [angleAxisMatrix, Matrix.mulVec, dotProduct, Fin.sum_univ_three, hx, hy, hz]
  · next h0 =>
    have hpos : 0 < n := lt_of_le_of_ne hn0 (Ne.symm h0)
    have hnorm : ‖(⟨|q.w|, n⟩ : ℂ)‖ = 1 := by
      rw [Complex.norm_def, Complex.normSq_mk]
      have : |q.w| * |q.w| + n * n = 1 := by rw [abs_mul_abs_self]; linear_combination h + hn
      rw [this, sqrt_one]
    have hcos := Complex.norm_mul_cos_arg ⟨|q.w|, n⟩
    have hsin := Complex.norm_mul_sin_arg ⟨|q.w|, n⟩
    rw [hnorm, one_mul] at hcos hsin
    simp only at hcos hsin
    have ec : cos (2 * Complex.arg ⟨|q.w|, n⟩) = 2 * q.w ^ 2 - 1 := by rw [cos_two_mul, hcos, sq_abs]
    have es : sin (2 * Complex.arg ⟨|q.w|, n⟩) = 2 * n * |q.w| := by rw [sin_two_mul, hcos, hsin]
    obtain ⟨m, hm, em, hm0⟩ : ∃ m, (if q.w < 0 then -n else n) = m ∧ m ^ 2 = n ^ 2 ∧ n * |q.w| = m * q.w := by
      refine ⟨_, rfl, ?_, ?_⟩
      · split <;> ring
      · split
        · next hw => rw [abs_of_neg hw]; ring
        · next hw => rw [abs_of_nonneg (not_lt.mp hw)]
    rw [hm]
    have m0 : m ≠ 0 := by
      intro h
      rw [h] at em
      nlinarith
    have emq : m ^ 2 = q.x ^ 2 + q.y ^ 2 + q.z ^ 2 := by rw [em, hn]
    refine ⟨normalized3_unit ?_, ?_⟩
    · simp [dot3]
      field_simp
      linarith
    · have hw2 : 1 - (2 * q.w ^ 2 - 1) = 2 * m ^ 2 := by rw [emq]; linear_combination (-2) * h
      have hww : 2 * q.w ^ 2 - 1 = 1 - 2 * m ^ 2 := by linarith
      apply vext
      · rw [rotate_0]
        simp only [angleAxisMatrix, Matrix.mulVec, dotProduct, Fin.sum_univ_three, ec, es, hw2]
        simp
        rw [hww, mul_assoc 2 n, hm0]
        field_simp
        rw [emq]; ring
      · rw [rotate_1]
        simp only [angleAxisMatrix, Matrix.mulVec, dotProduct, Fin.sum_univ_three, ec, es, hw2]
        simp
        rw [hww, mul_assoc 2 n, hm0]
        field_simp
        rw [emq]; ring
      · rw [rotate_2]
        simp only [angleAxisMatrix, Matrix.mulVec, dotProduct, Fin.sum_univ_three, ec, es, hw2]
        simp
        rw [hww, mul_assoc 2 n, hm0]
        field_simp
        rw [emq]; ring

/-- The rotation that takes the y-axis to a unit vector -/
theorem down_spec {axis : Vec3 → Vec3 → Vec3} (haxis : GoodAxis axis) {u : Vec3} (hu : NotAlmostDown u) :
    UnitQuat (Quat.fromTwoVectors axis ![0, 1, 0] u) ∧ (Quat.fromTwoVectors axis ![0, 1, 0] u).rotate ![0, 1, 0] = u := by
  obtain ⟨hunit, hd⟩ := hu
  have hunit : dot3 u u = 1 := hunit
  have hY : dot3 ![0, 1, 0] ![0, 1, 0] = 1 := by simp [dot3]
  have hdot : dot3 u ![0, 1, 0] = u 1 := by simp [dot3]
  rcases hd with hd | hd
  · exact fromTwoVectors_spec axis hY hunit (by rw [hdot]; exact hd)
  · have hu' : u = -![0, 1, 0] := by
      have hsq : u 0 * u 0 + u 2 * u 2 = 0 := by
        have := hunit
        simp only [dot3, hd] at this
        linarith
      have h0 : u 0 = 0 := by nlinarith [mul_self_nonneg (u 0), mul_self_nonneg (u 2)]
      have h2 : u 2 = 0 := by nlinarith [mul_self_nonneg (u 0), mul_self_nonneg (u 2)]
      exact funext (fin3_cases (by simp [h0]) (by simp [hd]) (by simp [h2]))
    unfold Quat.fromTwoVectors
    simp only [normalized3_unit hY, normalized3_unit hunit, dot3_eq, hdot, hd]
    rw [if_pos (by norm_num)]
    obtain ⟨h1, h2⟩ := haxis
    rw [← hu'] at h1 h2
    generalize axis ![0, 1, 0] u = ax at h1 h2
    have hay : ax 1 = 0 := by simpa [inner3] using h2
    have hs : Real.sqrt (1 - (1 + max (-1 : ℝ) (-1)) * (1 / 2)) = 1 := by norm_num
    have hw : Real.sqrt ((1 + max (-1 : ℝ) (-1)) * (1 / 2)) = 0 := by norm_num
    simp only [inner3, hay] at h1
    rw [hs, hw]
    constructor
    · simp only [UnitQuat, hay]; linarith
    · rw [hu']
      refine funext (fin3_cases ?_ ?_ ?_)
      · rw [rotate_0]; simp [hay]
      · rw [rotate_1]; simp [hay]; linarith
      · rw [rotate_2]; simp [hay]

/-- The two tangents that go with a direction -/
noncomputable def tangents (axis : Vec3 → Vec3 → Vec3) (a : Vec3) : Vec3 × Vec3 :=
  ((Quat.fromTwoVectors axis ![0, 1, 0] a).rotate ![1, 0, 0], (Quat.fromTwoVectors axis ![0, 1, 0] a).rotate ![0, 0, 1])

theorem tangents_orthonormal {axis : Vec3 → Vec3 → Vec3} (haxis : GoodAxis axis) {a : Vec3} (ha : NotAlmostDown a) :
    Orthonormal3 a (tangents axis a).1 (tangents axis a).2 := by
  obtain ⟨hq, hy⟩ := down_spec haxis ha
  unfold tangents
  set q := Quat.fromTwoVectors axis ![0, 1, 0] a
  have r := rotate_dot q hq
  have e : ∀ x y, inner3 x y = dot3 x y := fun _ _ => rfl
  unfold Orthonormal3
  simp only [e]
  rw [← hy, r, r, r, r, r, r]
  simp [dot3]

/-- What the rotation of a cylinder does -/
theorem cylinder_rotation {axis : Vec3 → Vec3 → Vec3} (haxis : GoodAxis axis) (c : PicCylinder) (ha : NotAlmostDown c.cylinder.axis) :
    UnitQuat (c.R axis) ∧ ∀ v : Vec3, (c.R axis).rotate v = v 0 • turned c.cylinder.axis c.theta (tangents axis c.cylinder.axis).1 + v 1 • c.cylinder.axis +
      v 2 • turned c.cylinder.axis c.theta (tangents axis c.cylinder.axis).2 := by
  obtain ⟨hq, hy⟩ := down_spec haxis ha
  obtain ⟨-, -, -, h1, -, h2⟩ := tangents_orthonormal haxis ha
  have h2 : inner3 c.cylinder.axis (tangents axis c.cylinder.axis).2 = 0 := by
    rw [← h2]; unfold inner3; ring
  have hu := unit_angleAxis c.theta ha.1
  refine ⟨unit_mul hu hq, fun v => ?_⟩
  rw [rotate_xyz]
  unfold PicCylinder.R
  rw [rotate_mul hu hq, rotate_mul hu hq, rotate_mul hu hq, hy, rotate_self]
  have e1 := rotate_turned c.theta ha.1 h1
  have e2 := rotate_turned c.theta ha.1 h2
  rw [← e1, ← e2]
  rfl

theorem apply_rotated_cyl {axis : Vec3 → Vec3 → Vec3} (haxis : GoodAxis axis) (c : PicCylinder) (ha : NotAlmostDown c.cylinder.axis) (o y : Vec3) :
    ((GlMatrix.ident.translated o).rotated (180 / π * (angleAxisOfQuat (c.R axis)).angle) (angleAxisOfQuat (c.R axis)).axis).apply y =
      o + y 0 • turned c.cylinder.axis c.theta (tangents axis c.cylinder.axis).1 + y 1 • c.cylinder.axis + y 2 • turned c.cylinder.axis c.theta (tangents axis c.cylinder.axis).2 := by
  obtain ⟨hu, hr⟩ := cylinder_rotation haxis c ha
  obtain ⟨hn, hm⟩ := angleAxis_spec hu y
  have e : 180 / π * (angleAxisOfQuat (c.R axis)).angle * π / 180 = (angleAxisOfQuat (c.R axis)).angle := by
    have := pi_ne_zero
    field_simp
  unfold GlMatrix.rotated GlMatrix.apply GlMatrix.translated GlMatrix.ident
  simp only [one_mul]
  rw [e, hn, hm, hr, Matrix.one_mulVec]
  simp only [add_zero]
  module

/-! ## Cylinders -/

theorem ring_marks (paint : Paint) (x u w : Vec3) (r : ℝ) (p : Vec3) :
    (⟨.lineLoop, paint, (List.range 64).map fun (k : ℕ) => x + (r * cos (k * (π / 32))) • u + (r * sin (k * (π / 32))) • w⟩ : Draw).Marks p ↔ p ∈ ringSet x u w r := by
  simp only [Draw.Marks, List.length_map, List.length_range, ringSet, Set.mem_setOf_eq]
  have get : ∀ i < 64, ((List.range 64).map fun (k : ℕ) => x + (r * cos (k * (π / 32))) • u + (r * sin (k * (π / 32))) • w).getD i 0 =
      x + (r * cos (i * (π / 32))) • u + (r * sin (i * (π / 32))) • w := by
    intro i hi
    rw [List.getD_eq_getElem?_getD, List.getElem?_map, List.getElem?_range hi]
    rfl
  have wrap : ∀ i < 64, ((List.range 64).map fun (k : ℕ) => x + (r * cos (k * (π / 32))) • u + (r * sin (k * (π / 32))) • w).getD ((i + 1) % 64) 0 =
      x + (r * cos ((i + 1 : ℕ) * (π / 32))) • u + (r * sin ((i + 1 : ℕ) * (π / 32))) • w := by
    intro i hi
    rw [get _ (Nat.mod_lt _ (by norm_num))]
    by_cases h : i + 1 = 64
    · rw [h]
      have e : ((64 : ℕ) : ℝ) * (π / 32) = 2 * π := by push_cast; ring
      rw [e]
      simp
    · rw [Nat.mod_eq_of_lt (by omega)]
  constructor
  · rintro ⟨i, hi, h⟩
    rw [get i hi, wrap i hi] at h
    exact ⟨i, hi, h⟩
  · rintro ⟨i, hi, h⟩
    refine ⟨i, hi, ?_⟩
    rw [get i hi, wrap i hi]
    exact h

theorem lines8 (paint : Paint) (a b c d e f g h p : Vec3) :
    (⟨.lines, paint, [a, b, c, d, e, f, g, h]⟩ : Draw).Marks p ↔ Between a b p ∨ Between c d p ∨ Between e f p ∨ Between g h p := by
  simp only [Draw.Marks, List.length_cons, List.length_nil]
  constructor
  · rintro ⟨i, hi, h⟩
    have : i = 0 ∨ i = 1 ∨ i = 2 ∨ i = 3 := by omega
    rcases this with rfl | rfl | rfl | rfl
    · exact .inl h
    · exact .inr (.inl h)
    · exact .inr (.inr (.inl h))
    · exact .inr (.inr (.inr h))
  · rintro (h | h | h | h)
    · exact ⟨0, by norm_num, h⟩
    · exact ⟨1, by norm_num, h⟩
    · exact ⟨2, by norm_num, h⟩
    · exact ⟨3, by norm_num, h⟩

theorem lined_cylinder {axis : Vec3 → Vec3 → Vec3} (haxis : GoodAxis axis) (c : PicCylinder) (ha : NotAlmostDown c.cylinder.axis) (L : ℝ) (paint : Paint) (p : Vec3) :
    Lined (drawStaticCylinder axis c L) paint p ↔ paint = .plain black ∧
      p ∈ cageSet c.cylinder.x c.cylinder.axis (turned c.cylinder.axis c.theta (tangents axis c.cylinder.axis).1)
        (turned c.cylinder.axis c.theta (tangents axis c.cylinder.axis).2) c.cylinder.r L := by
  unfold drawStaticCylinder
  simp only [lined_cons, lined_nil, or_false]
  have key := apply_rotated_cyl haxis c ha
  set q := angleAxisOfQuat (c.R axis)
  set a := c.cylinder.axis
  set u := turned a c.theta (tangents axis a).1
  set w := turned a c.theta (tangents axis a).2
  set r := c.cylinder.r
  set x := c.cylinder.x
  have ring : ∀ o, ringVertices.map (((GlMatrix.ident.translated o).rotated (180 / π * q.angle) q.axis).scaled ![r, 1, r]).apply =
      (List.range 64).map fun (k : ℕ) => o + (r * cos (k * (π / 32))) • u + (r * sin (k * (π / 32))) • w := by
    intro o
    unfold ringVertices
    rw [List.map_map]
    apply List.map_congr_left
    intro k _
    simp only [Function.comp]
    rw [apply_scaled, key]
    have e : (k : ℝ) * (2 * π / 64) = k * (π / 32) := by ring
    simp [e]
  rw [ring, ring, ring_marks, ring_marks]
  simp only [List.map_cons, List.map_nil, key, lines8]
  have eL : (1 / 2 * L) • a = (L / 2) • a := by congr 1; ring
  rw [eL]
  have ends : ∀ y0 y2 : ℝ, ∀ d : Vec3, y0 • u + y2 • w = r • d →
      ((Between (x + (![y0, 1 / 2 * L, y2] : Vec3) 0 • u + (![y0, 1 / 2 * L, y2] : Vec3) 1 • a + (![y0, 1 / 2 * L, y2] : Vec3) 2 • w)
        (x + (![y0, -(1 / 2) * L, y2] : Vec3) 0 • u + (![y0, -(1 / 2) * L, y2] : Vec3) 1 • a + (![y0, -(1 / 2) * L, y2] : Vec3) 2 • w) p) ↔
      Between (x + r • d + (L / 2) • a) (x + r • d - (L / 2) • a) p) := by
    intro y0 y2 d h
    have e1 : x + (![y0, 1 / 2 * L, y2] : Vec3) 0 • u + (![y0, 1 / 2 * L, y2] : Vec3) 1 • a + (![y0, 1 / 2 * L, y2] : Vec3) 2 • w = x + r • d + (L / 2) • a := by
      rw [← h]; simp; module
    have e2 : x + (![y0, -(1 / 2) * L, y2] : Vec3) 0 • u + (![y0, -(1 / 2) * L, y2] : Vec3) 1 • a + (![y0, -(1 / 2) * L, y2] : Vec3) 2 • w = x + r • d - (L / 2) • a := by
      rw [← h]; simp; module
    rw [e1, e2]
  rw [ends 0 r w (by module), ends 0 (-r) (-w) (by module), ends r 0 u (by module), ends (-r) 0 (-u) (by module)]
  unfold cageSet
  simp only [Set.mem_union, Set.mem_setOf_eq, List.mem_cons, List.not_mem_nil, or_false, exists_eq_or_imp, exists_eq_left]
  constructor
  · rintro (⟨h, k⟩ | ⟨h, k⟩ | ⟨h, k⟩)
    · exact ⟨h.symm, .inl (.inl k)⟩
    · exact ⟨h.symm, .inl (.inr k)⟩
    · refine ⟨h.symm, .inr ?_⟩
      tauto
  · rintro ⟨rfl, (k | k) | k⟩
    · exact .inl ⟨rfl, k⟩
    · exact .inr (.inl ⟨rfl, k⟩)
    · refine .inr (.inr ⟨rfl, ?_⟩)
      tauto

end Picture3
end Scisim
