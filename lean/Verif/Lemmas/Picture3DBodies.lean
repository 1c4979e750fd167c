import Verif.Lemmas.Picture3D
/-!
# Lemmas about the pictures of bodies in space
-/

namespace Scisim
namespace Picture3

open Matrix Real

/-! ## Matrices -/

theorem apply_scaled (M : GlMatrix) (s y : Vec3) : (M.scaled s).apply y = M.apply ![s 0 * y 0, s 1 * y 1, s 2 * y 2] := by
  unfold GlMatrix.scaled GlMatrix.apply
  simp only
  rw [← Matrix.mulVec_mulVec]
  congr 2
  apply vext <;> simp [Matrix.mulVec_diagonal]

theorem apply_translated (M : GlMatrix) (d y : Vec3) : (M.translated d).apply y = M.apply (d + y) := by
  unfold GlMatrix.translated GlMatrix.apply
  simp only
  rw [Matrix.mulVec_add]
  abel

theorem apply_multiplied (M : GlMatrix) (R : Mat3) (y : Vec3) : (M.multiplied R).apply y = M.apply (R *ᵥ y) := by
  unfold GlMatrix.multiplied GlMatrix.apply
  simp only
  rw [← Matrix.mulVec_mulVec]

theorem normalized_z : normalized3 ![0, 0, 1] = ![0, 0, 1] := normalized3_unit (by simp [dot3])

theorem apply_rotated_z (M : GlMatrix) (degrees : ℝ) (y : Vec3) : (M.rotated degrees ![0, 0, 1]).apply y =
    M.apply ![cos (degrees * π / 180) * y 0 - sin (degrees * π / 180) * y 1, sin (degrees * π / 180) * y 0 + cos (degrees * π / 180) * y 1, y 2] := by
  unfold GlMatrix.rotated GlMatrix.apply
  simp only
  rw [← Matrix.mulVec_mulVec, normalized_z]
  congr 2
  apply vext <;> simp [angleAxisMatrix, Matrix.mulVec, dotProduct, Fin.sum_univ_three] <;> ring

theorem deg90 : (90 : ℝ) * π / 180 = π / 2 := by ring
theorem deg180 : (180 : ℝ) * π / 180 = π := by ring
theorem deg270 : (270 : ℝ) * π / 180 = π + π / 2 := by ring

theorem apply_90 (M : GlMatrix) (y : Vec3) : (M.rotated 90 ![0, 0, 1]).apply y = M.apply ![-y 1, y 0, y 2] := by
  rw [apply_rotated_z, deg90, cos_pi_div_two, sin_pi_div_two]; simp

theorem apply_180 (M : GlMatrix) (y : Vec3) : (M.rotated 180 ![0, 0, 1]).apply y = M.apply ![-y 0, -y 1, y 2] := by
  rw [apply_rotated_z, deg180, cos_pi, sin_pi]; simp

theorem apply_270 (M : GlMatrix) (y : Vec3) : (M.rotated 270 ![0, 0, 1]).apply y = M.apply ![y 1, -y 0, y 2] := by
  rw [apply_rotated_z, deg270, cos_add, sin_add, cos_pi, sin_pi, cos_pi_div_two, sin_pi_div_two]; simp

/-! ## Spheres -/

/-- The paint of a smooth surface -/
theorem smooth_eq (c : Color) : smooth c = tinted (3 / 10) 1 c := by simp [smooth, tinted, Color.times]

theorem drawSphere_ok {n : ℕ} (h : 6 * 4 ^ n < 2 ^ 32) (M : GlMatrix) (c d : Color) : drawSphere n M c d = .ok (drawVertexArray (flat3 (quarter n)) M c d) := by
  unfold drawSphere
  rw [(generateSphere_ok n h).1]
  rfl

theorem shown_cons (d : Draw) (ds : List Draw) (paint : Paint) (p : Vec3) : Shown (d :: ds) paint p ↔ (d.paint = paint ∧ d.Covers p) ∨ Shown ds paint p := by
  simp [Shown]

theorem shown_append (a b : List Draw) (paint : Paint) (p : Vec3) : Shown (a ++ b) paint p ↔ Shown a paint p ∨ Shown b paint p := by
  simp only [Shown, List.mem_append]
  constructor
  · rintro ⟨d, h | h, r⟩
    · exact .inl ⟨d, h, r⟩
    · exact .inr ⟨d, h, r⟩
  · rintro (⟨d, h, r⟩ | ⟨d, h, r⟩)
    · exact ⟨d, .inl h, r⟩
    · exact ⟨d, .inr h, r⟩

theorem shown_nil (paint : Paint) (p : Vec3) : ¬Shown [] paint p := by simp [Shown]

/-- What the four quarters show -/
theorem shown_quarters (n : ℕ) (M : GlMatrix) (c d : Color) (paint : Paint) (p : Vec3) :
    Shown (drawVertexArray (flat3 (quarter n)) M c d) paint p ↔ ∃ t ∈ quarter n, ∃ y, InTriangle t.1 t.2.1 t.2.2 y ∧
      ((tinted (3 / 10) 1 c = paint ∧ (p = M.apply y ∨ p = M.apply ![-y 0, -y 1, y 2])) ∨
       (tinted (3 / 10) 1 d = paint ∧ (p = M.apply ![-y 1, y 0, y 2] ∨ p = M.apply ![y 1, -y 0, y 2]))) := by
  have e : ∀ k : Color, Paint.material (k.times (3 / 10)) k = tinted (3 / 10) 1 k := fun k => by simp [tinted, Color.times]
  unfold drawVertexArray
  simp only [shown_cons, shown_nil, or_false, covers_map3, apply_90, apply_180, apply_270, e]
  constructor
  · rintro (⟨h, t, ht, y, hy, hp⟩ | ⟨h, t, ht, y, hy, hp⟩ | ⟨h, t, ht, y, hy, hp⟩ | ⟨h, t, ht, y, hy, hp⟩)
    · exact ⟨t, ht, y, hy, .inl ⟨h, .inl hp⟩⟩
    · exact ⟨t, ht, y, hy, .inl ⟨h, .inr hp⟩⟩
    · exact ⟨t, ht, y, hy, .inr ⟨h, .inl hp⟩⟩
    · exact ⟨t, ht, y, hy, .inr ⟨h, .inr hp⟩⟩
  · rintro ⟨t, ht, y, hy, ⟨h, hp | hp⟩ | ⟨h, hp | hp⟩⟩
    · exact .inl ⟨h, t, ht, y, hy, hp⟩
    · exact .inr (.inl ⟨h, t, ht, y, hy, hp⟩)
    · exact .inr (.inr (.inl ⟨h, t, ht, y, hy, hp⟩))
    · exact .inr (.inr (.inr ⟨h, t, ht, y, hy, hp⟩))

theorem sphere_sound {n : ℕ} {M : GlMatrix} {c d : Color} {paint : Paint} {p : Vec3} (h : Shown (drawVertexArray (flat3 (quarter n)) M c d) paint p) :
    ∃ y, p = M.apply y ∧ 4 ^ n / (4 ^ n + 2) ≤ sqLen y ∧ sqLen y ≤ 1 ∧
      ((0 ≤ y 0 * y 1 ∧ paint = tinted (3 / 10) 1 c) ∨ (y 0 * y 1 ≤ 0 ∧ paint = tinted (3 / 10) 1 d)) := by
  rw [shown_quarters] at h
  obtain ⟨t, ht, y, hy, h⟩ := h
  obtain ⟨h1, h2, h3, h4⟩ := near_of_quarter n ht hy
  have hp := mul_nonneg h3 h4
  have e : ∀ a b c : ℝ, sqLen ![a, b, c] = a ^ 2 + b ^ 2 + c ^ 2 := fun a b c => by simp [sqLen]
  have hl : sqLen y = y 0 ^ 2 + y 1 ^ 2 + y 2 ^ 2 := rfl
  rcases h with ⟨hc, hp' | hp'⟩ | ⟨hc, hp' | hp'⟩
  · exact ⟨y, hp', h1, h2, .inl ⟨hp, hc.symm⟩⟩
  · have q : sqLen ![-y 0, -y 1, y 2] = sqLen y := by rw [e, hl]; ring
    refine ⟨_, hp', by rw [q]; exact h1, by rw [q]; exact h2, .inl ⟨?_, hc.symm⟩⟩
    simpa using hp
  · have q : sqLen ![-y 1, y 0, y 2] = sqLen y := by rw [e, hl]; ring
    refine ⟨_, hp', by rw [q]; exact h1, by rw [q]; exact h2, .inr ⟨?_, hc.symm⟩⟩
    show -y 1 * y 0 ≤ 0
    linarith
  · have q : sqLen ![y 1, -y 0, y 2] = sqLen y := by rw [e, hl]; ring
    refine ⟨_, hp', by rw [q]; exact h1, by rw [q]; exact h2, .inr ⟨?_, hc.symm⟩⟩
    show y 1 * -y 0 ≤ 0
    linarith

theorem sphere_complete (n : ℕ) (M : GlMatrix) (c d : Color) {u : Vec3} (hu : sqLen u = 1) :
    (0 ≤ u 0 * u 1 → ∃ t : ℝ, 0 ≤ t ∧ 4 ^ n / (4 ^ n + 2) ≤ sqLen (t • u) ∧ sqLen (t • u) ≤ 1 ∧
      Shown (drawVertexArray (flat3 (quarter n)) M c d) (tinted (3 / 10) 1 c) (M.apply (t • u))) ∧
    (u 0 * u 1 ≤ 0 → ∃ t : ℝ, 0 ≤ t ∧ 4 ^ n / (4 ^ n + 2) ≤ sqLen (t • u) ∧ sqLen (t • u) ≤ 1 ∧
      Shown (drawVertexArray (flat3 (quarter n)) M c d) (tinted (3 / 10) 1 d) (M.apply (t • u))) := by
  simp only [shown_quarters]
  have e : ∀ a b c : ℝ, sqLen ![a, b, c] = a ^ 2 + b ^ 2 + c ^ 2 := fun a b c => by simp [sqLen]
  have hl : u 0 ^ 2 + u 1 ^ 2 + u 2 ^ 2 = 1 := hu
  have gl : ∀ t : ℝ, sqLen (t • u) = t ^ 2 * (u 0 ^ 2 + u 1 ^ 2 + u 2 ^ 2) := fun t => by simp only [sqLen, Pi.smul_apply, smul_eq_mul]; ring
  have get : ∀ a b : ℝ, 0 ≤ a → 0 ≤ b → a ^ 2 + b ^ 2 = u 0 ^ 2 + u 1 ^ 2 → ∃ t ∈ quarter n, ∃ s : ℝ, 0 ≤ s ∧ InTriangle t.1 t.2.1 t.2.2 (s • ![a, b, u 2]) ∧
      4 ^ n / (4 ^ n + 2) ≤ sqLen (s • u) ∧ sqLen (s • u) ≤ 1 := by
    intro a b ha hb hab
    obtain ⟨t, ht, s, hs, h⟩ := quarter_covers n (d := ![a, b, u 2]) ha hb (by rw [e]; linarith)
    have := near_of_quarter n ht h
    have q : sqLen (s • ![a, b, u 2]) = sqLen (s • u) := by
      rw [gl]; simp [sqLen]; linear_combination s ^ 2 * hab
    rw [q] at this
    exact ⟨t, ht, s, hs, h, this.1, this.2.1⟩
  constructor
  · intro h
    have : (0 ≤ u 0 ∧ 0 ≤ u 1) ∨ (u 0 ≤ 0 ∧ u 1 ≤ 0) := mul_nonneg_iff.mp h
    rcases this with ⟨h0, h1⟩ | ⟨h0, h1⟩
    · obtain ⟨t, ht, s, hs, hi, b1, b2⟩ := get (u 0) (u 1) h0 h1 rfl
      refine ⟨s, hs, b1, b2, t, ht, _, hi, .inl ⟨trivial, .inl ?_⟩⟩
      congr 1; apply vext <;> simp
    · obtain ⟨t, ht, s, hs, hi, b1, b2⟩ := get (-u 0) (-u 1) (by linarith) (by linarith) (by ring)
      refine ⟨s, hs, b1, b2, t, ht, _, hi, .inl ⟨trivial, .inr ?_⟩⟩
      congr 1; apply vext <;> simp
  · intro h
    have : (0 ≤ u 0 ∧ u 1 ≤ 0) ∨ (u 0 ≤ 0 ∧ 0 ≤ u 1) := mul_nonpos_iff.mp h
    rcases this with ⟨h0, h1⟩ | ⟨h0, h1⟩
    · obtain ⟨t, ht, s, hs, hi, b1, b2⟩ := get (-u 1) (u 0) (by linarith) h0 (by ring)
      refine ⟨s, hs, b1, b2, t, ht, _, hi, .inr ⟨trivial, .inr ?_⟩⟩
      congr 1; apply vext <;> simp
    · obtain ⟨t, ht, s, hs, hi, b1, b2⟩ := get (u 1) (-u 0) h1 (by linarith) (by ring)
      refine ⟨s, hs, b1, b2, t, ht, _, hi, .inr ⟨trivial, .inl ?_⟩⟩
      congr 1; apply vext <;> simp

theorem scaled_r (M : GlMatrix) (r : ℝ) (y : Vec3) : (M.scaled ![r, r, r]).apply y = M.apply (r • y) := by
  rw [apply_scaled]; congr 1; apply vext <;> simp

theorem sqLen_smul (r : ℝ) (y : Vec3) : sqLen (r • y) = r ^ 2 * sqLen y := by simp only [sqLen, Pi.smul_apply, smul_eq_mul]; ring

theorem small4 : 6 * 4 ^ 4 < 2 ^ 32 := by norm_num

theorem tol4 : (4 : ℝ) ^ 4 / (4 ^ 4 + 2) = 128 / 129 := by norm_num

/-- What a sphere of radius `r` shows -/
theorem ball_sound {M : GlMatrix} {r : ℝ} {c d : Color} {paint : Paint} {p : Vec3}
    (h : Shown (drawVertexArray (flat3 (quarter 4)) (M.scaled ![r, r, r]) c d) paint p) :
    ∃ y, p = M.apply y ∧ NearSphere r y ∧ ((0 ≤ y 0 * y 1 ∧ paint = tinted (3 / 10) 1 c) ∨ (y 0 * y 1 ≤ 0 ∧ paint = tinted (3 / 10) 1 d)) := by
  obtain ⟨y, hp, h1, h2, h3⟩ := sphere_sound h
  rw [tol4] at h1
  have hr := sq_nonneg r
  refine ⟨r • y, by rw [hp, scaled_r], ⟨?_, ?_⟩, ?_⟩
  · rw [sqLen_smul]; nlinarith
  · rw [sqLen_smul]; nlinarith
  · have q : (r • y) 0 * (r • y) 1 = r ^ 2 * (y 0 * y 1) := by simp only [Pi.smul_apply, smul_eq_mul]; ring
    rw [q]
    rcases h3 with ⟨h, e⟩ | ⟨h, e⟩
    · exact .inl ⟨mul_nonneg hr h, e⟩
    · exact .inr ⟨mul_nonpos_of_nonneg_of_nonpos hr h, e⟩

theorem ball_complete (M : GlMatrix) {r : ℝ} (hr : 0 ≤ r) (c d : Color) {u : Vec3} (hu : sqLen u = 1) :
    (0 ≤ u 0 * u 1 → ∃ t : ℝ, 0 ≤ t ∧ NearSphere r (t • u) ∧
      Shown (drawVertexArray (flat3 (quarter 4)) (M.scaled ![r, r, r]) c d) (tinted (3 / 10) 1 c) (M.apply (t • u))) ∧
    (u 0 * u 1 ≤ 0 → ∃ t : ℝ, 0 ≤ t ∧ NearSphere r (t • u) ∧
      Shown (drawVertexArray (flat3 (quarter 4)) (M.scaled ![r, r, r]) c d) (tinted (3 / 10) 1 d) (M.apply (t • u))) := by
  obtain ⟨h1, h2⟩ := sphere_complete 4 (M.scaled ![r, r, r]) c d hu
  rw [tol4] at h1 h2
  have hr2 := sq_nonneg r
  constructor
  · intro h
    obtain ⟨t, ht, b1, b2, hs⟩ := h1 h
    refine ⟨r * t, mul_nonneg hr ht, ?_, ?_⟩
    · rw [← smul_smul]
      constructor <;> rw [sqLen_smul] <;> nlinarith
    · rw [← smul_smul, ← scaled_r]; exact hs
  · intro h
    obtain ⟨t, ht, b1, b2, hs⟩ := h2 h
    refine ⟨r * t, mul_nonneg hr ht, ?_, ?_⟩
    · rw [← smul_smul]
      constructor <;> rw [sqLen_smul] <;> nlinarith
    · rw [← smul_smul, ← scaled_r]; exact hs

/-! ## Boxes -/

/-- The six sides of a box -/
def boxQuads : List (Vec3 × Vec3 × Vec3 × Vec3) :=
  [(![1, 1, 1], ![1, 1, -1], ![-1, 1, -1], ![-1, 1, 1]),
   (![1, -1, 1], ![1, -1, -1], ![-1, -1, -1], ![-1, -1, 1]),
   (![1, -1, 1], ![1, -1, -1], ![1, 1, -1], ![1, 1, 1]),
   (![-1, -1, 1], ![-1, -1, -1], ![-1, 1, -1], ![-1, 1, 1]),
   (![-1, -1, 1], ![1, -1, 1], ![1, 1, 1], ![-1, 1, 1]),
   (![-1, -1, -1], ![1, -1, -1], ![1, 1, -1], ![-1, 1, -1])]

theorem boxVertices_eq : boxVertices = flat4 boxQuads := rfl

theorem cube_sound {q : Vec3 × Vec3 × Vec3 × Vec3} (hq : q ∈ boxQuads) {y : Vec3} (h : InQuad q.1 q.2.1 q.2.2.1 q.2.2.2 y) :
    (∀ k, |y k| ≤ 1) ∧ ∃ k, |y k| = 1 := by
  obtain ⟨s, t, u, v, hs, ht, hu, hv, e, rfl⟩ := h
  simp only [boxQuads, List.mem_cons, List.not_mem_nil, or_false] at hq
  have eq1 : ∀ {x : ℝ}, x = 1 ∨ x = -1 → |x| = 1 := by rintro x (rfl | rfl) <;> simp
  rcases hq with rfl | rfl | rfl | rfl | rfl | rfl
  · refine ⟨fun k => abs_le.mpr ?_, 1, eq1 (.inl ?_)⟩
    · fin_cases k <;> simp <;> constructor <;> linarith
    · simp; linarith
  · refine ⟨fun k => abs_le.mpr ?_, 1, eq1 (.inr ?_)⟩
    · fin_cases k <;> simp <;> constructor <;> linarith
    · simp; linarith
  · refine ⟨fun k => abs_le.mpr ?_, 0, eq1 (.inl ?_)⟩
    · fin_cases k <;> simp <;> constructor <;> linarith
    · simp; linarith
  · refine ⟨fun k => abs_le.mpr ?_, 0, eq1 (.inr ?_)⟩
    · fin_cases k <;> simp <;> constructor <;> linarith
    · simp; linarith
  · refine ⟨fun k => abs_le.mpr ?_, 2, eq1 (.inl ?_)⟩
    · fin_cases k <;> simp <;> constructor <;> linarith
    · simp; linarith
  · refine ⟨fun k => abs_le.mpr ?_, 2, eq1 (.inr ?_)⟩
    · fin_cases k <;> simp <;> constructor <;> linarith
    · simp; linarith

theorem cube_complete {y : Vec3} (h : ∀ k, |y k| ≤ 1) (h1 : ∃ k, |y k| = 1) : ∃ q ∈ boxQuads, InQuad q.1 q.2.1 q.2.2.1 q.2.2.2 y := by
  obtain ⟨a0, b0⟩ := abs_le.mp (h 0)
  obtain ⟨a1, b1⟩ := abs_le.mp (h 1)
  obtain ⟨a2, b2⟩ := abs_le.mp (h 2)
  have p0 : 0 ≤ 1 + y 0 := by linarith
  have m0 : 0 ≤ 1 - y 0 := by linarith
  have p1 : 0 ≤ 1 + y 1 := by linarith
  have m1 : 0 ≤ 1 - y 1 := by linarith
  have p2 : 0 ≤ 1 + y 2 := by linarith
  have m2 : 0 ≤ 1 - y 2 := by linarith
  obtain ⟨k, hk⟩ := h1
  have hk' : y k = 1 ∨ y k = -1 := by
    rcases abs_cases (y k) with ⟨e, -⟩ | ⟨e, -⟩
    · left; linarith
    · right; linarith
  fin_cases k
  · replace hk' : y 0 = 1 ∨ y 0 = -1 := hk'
    rcases hk' with hk' | hk'
    · refine ⟨boxQuads[2], by simp [boxQuads], (1 - y 1) * (1 + y 2) / 4, (1 - y 1) * (1 - y 2) / 4, (1 + y 1) * (1 - y 2) / 4, (1 + y 1) * (1 + y 2) / 4,
        by positivity, by positivity, by positivity, by positivity, by ring, ?_⟩
      apply vext <;> simp [boxQuads] <;> first | ring1 | linear_combination hk'
    · refine ⟨boxQuads[3], by simp [boxQuads], (1 - y 1) * (1 + y 2) / 4, (1 - y 1) * (1 - y 2) / 4, (1 + y 1) * (1 - y 2) / 4, (1 + y 1) * (1 + y 2) / 4,
        by positivity, by positivity, by positivity, by positivity, by ring, ?_⟩
      apply vext <;> simp [boxQuads] <;> first | ring1 | linear_combination hk'
  · replace hk' : y 1 = 1 ∨ y 1 = -1 := hk'
    rcases hk' with hk' | hk'
    · refine ⟨boxQuads[0], by simp [boxQuads], (1 + y 0) * (1 + y 2) / 4, (1 + y 0) * (1 - y 2) / 4, (1 - y 0) * (1 - y 2) / 4, (1 - y 0) * (1 + y 2) / 4,
        by positivity, by positivity, by positivity, by positivity, by ring, ?_⟩
      apply vext <;> simp [boxQuads] <;> first | ring1 | linear_combination hk'
    · refine ⟨boxQuads[1], by simp [boxQuads], (1 + y 0) * (1 + y 2) / 4, (1 + y 0) * (1 - y 2) / 4, (1 - y 0) * (1 - y 2) / 4, (1 - y 0) * (1 + y 2) / 4,
        by positivity, by positivity, by positivity, by positivity, by ring, ?_⟩
      apply vext <;> simp [boxQuads] <;> first | ring1 | linear_combination hk'
  · replace hk' : y 2 = 1 ∨ y 2 = -1 := hk'
    rcases hk' with hk' | hk'
    · refine ⟨boxQuads[4], by simp [boxQuads], (1 - y 0) * (1 - y 1) / 4, (1 + y 0) * (1 - y 1) / 4, (1 + y 0) * (1 + y 1) / 4, (1 - y 0) * (1 + y 1) / 4,
        by positivity, by positivity, by positivity, by positivity, by ring, ?_⟩
      apply vext <;> simp [boxQuads] <;> first | ring1 | linear_combination hk'
    · refine ⟨boxQuads[5], by simp [boxQuads], (1 - y 0) * (1 - y 1) / 4, (1 + y 0) * (1 - y 1) / 4, (1 + y 0) * (1 + y 1) / 4, (1 - y 0) * (1 + y 1) / 4,
        by positivity, by positivity, by positivity, by positivity, by ring, ?_⟩
      apply vext <;> simp [boxQuads] <;> first | ring1 | linear_combination hk'

theorem faceted_eq (c : Color) : faceted c = tinted (4 / 5) (9 / 10) c := by simp [faceted, tinted, Color.times]

theorem box_shown {h : Vec3} (hh : ∀ k, 0 < h k) (M : GlMatrix) (c : Color) (paint : Paint) (p : Vec3) :
    Shown (paintBox M h c) paint p ↔ ∃ y, p = M.apply y ∧ OnBox h y ∧ paint = tinted (4 / 5) (9 / 10) c := by
  unfold paintBox
  rw [shown_cons, boxVertices_eq, covers_map4]
  simp only [shown_nil, or_false, apply_scaled, faceted_eq]
  constructor
  · rintro ⟨e, q, hq, y, hy, hp⟩
    obtain ⟨h1, k, hk⟩ := cube_sound hq hy
    refine ⟨_, hp, ⟨?_, ?_⟩, e.symm⟩
    · intro j
      have hj := hh j
      have hj1 := h1 j
      fin_cases j <;> simp [abs_mul] at hj hj1 ⊢ <;> rw [abs_of_pos hj] <;> nlinarith
    · have hj := hh k
      refine ⟨k, ?_⟩
      fin_cases k <;> simp [abs_mul] at hj hk ⊢ <;> rw [abs_of_pos hj, hk, mul_one]
  · rintro ⟨y, hp, ⟨h1, k, hk⟩, e⟩
    refine ⟨e.symm, ?_⟩
    obtain ⟨q, hq, hi⟩ := cube_complete (y := fun k => y k / h k) (fun j => by
      rw [abs_div, abs_of_pos (hh j), div_le_one (hh j)]; exact h1 j) ⟨k, by rw [abs_div, abs_of_pos (hh k), hk, div_self (hh k).ne']⟩
    refine ⟨q, hq, _, hi, ?_⟩
    rw [hp]
    congr 1
    apply vext
    · simp; field_simp [(hh 0).ne']
    · simp; field_simp [(hh 1).ne']
    · simp; field_simp [(hh 2).ne']

/-! ## Meshes -/

theorem column_ok {α : Type} {l : List α} {i : ℕ} {a : α} : column l i = .ok a ↔ l[i]? = some a := by
  unfold column
  split
  · next h => rw [h]; simp
  · next h => rw [h]; simp

theorem meshVertices_ok {verts : List Vec3} {faces : List (ℕ × ℕ × ℕ)} {vs : List Vec3} (h : meshVertices verts faces = .ok vs) :
    ∃ ts, vs = flat3 ts ∧ (∀ t ∈ ts, ∃ f ∈ faces, verts[f.1]? = some t.1 ∧ verts[f.2.1]? = some t.2.1 ∧ verts[f.2.2]? = some t.2.2) ∧
      ∀ f ∈ faces, ∃ t ∈ ts, verts[f.1]? = some t.1 ∧ verts[f.2.1]? = some t.2.1 ∧ verts[f.2.2]? = some t.2.2 := by
  induction faces generalizing vs with
  | nil =>
    simp only [meshVertices, Outcome.ok.injEq] at h
    exact ⟨[], h.symm, by simp, by simp⟩
  | cons f faces ih =>
    simp only [meshVertices] at h
    obtain ⟨a, ha, h⟩ := Outcome.bind_ok_iff.mp h
    obtain ⟨b, hb, h⟩ := Outcome.bind_ok_iff.mp h
    obtain ⟨c, hc, h⟩ := Outcome.bind_ok_iff.mp h
    obtain ⟨more, hm, h⟩ := Outcome.bind_ok_iff.mp h
    rw [column_ok] at ha hb hc
    obtain ⟨ts, rfl, h1, h2⟩ := ih hm
    simp only [Outcome.ok.injEq] at h
    refine ⟨(a, b, c) :: ts, h.symm, ?_, ?_⟩
    · intro t ht
      rcases List.mem_cons.mp ht with rfl | ht
      · exact ⟨f, by simp, ha, hb, hc⟩
      · obtain ⟨g, hg, r⟩ := h1 t ht
        exact ⟨g, by simp [hg], r⟩
    · intro g hg
      rcases List.mem_cons.mp hg with rfl | hg
      · exact ⟨(a, b, c), by simp, ha, hb, hc⟩
      · obtain ⟨t, ht, r⟩ := h2 g hg
        exact ⟨t, by simp [ht], r⟩

theorem meshVertices_iff {verts : List Vec3} {faces : List (ℕ × ℕ × ℕ)} :
    (∃ vs, meshVertices verts faces = .ok vs) ↔ ∀ f ∈ faces, f.1 < verts.length ∧ f.2.1 < verts.length ∧ f.2.2 < verts.length := by
  constructor
  · rintro ⟨vs, h⟩ f hf
    obtain ⟨ts, -, -, h2⟩ := meshVertices_ok h
    obtain ⟨t, -, a, b, c⟩ := h2 f hf
    exact ⟨(List.getElem?_eq_some_iff.mp a).1, (List.getElem?_eq_some_iff.mp b).1, (List.getElem?_eq_some_iff.mp c).1⟩
  · intro h
    induction faces with
    | nil => exact ⟨[], rfl⟩
    | cons f faces ih =>
      obtain ⟨vs, hv⟩ := ih fun g hg => h g (by simp [hg])
      obtain ⟨a, b, c⟩ := h f (by simp)
      simp only [meshVertices]
      rw [column_ok.mpr (List.getElem?_eq_getElem a), column_ok.mpr (List.getElem?_eq_getElem b), column_ok.mpr (List.getElem?_eq_getElem c), hv]
      exact ⟨_, rfl⟩

/-! ## Tubes -/

/-- The quads of a tube -/
noncomputable def tubeQuads (n : ℕ) (r : ℝ) : List (Vec3 × Vec3 × Vec3 × Vec3) :=
  (List.range n).map fun (k : ℕ) =>
    (![-(1 / 2), r * cos (k * (2 * π / n)), r * sin (k * (2 * π / n))],
     ![-(1 / 2), r * cos (((k + 1) % n : ℕ) * (2 * π / n)), r * sin (((k + 1) % n : ℕ) * (2 * π / n))],
     ![1 / 2, r * cos (((k + 1) % n : ℕ) * (2 * π / n)), r * sin (((k + 1) % n : ℕ) * (2 * π / n))],
     ![1 / 2, r * cos (k * (2 * π / n)), r * sin (k * (2 * π / n))])

theorem cylinderVertices_eq (n : ℕ) (r : ℝ) : cylinderVertices n r = flat4 (tubeQuads n r) := by
  unfold cylinderVertices tubeQuads flat4
  rw [List.flatMap_map]

theorem wrap_angle {n : ℕ} (hn : 0 < n) {k : ℕ} (hk : k < n) :
    cos (((k + 1) % n : ℕ) * (2 * π / n)) = cos ((k : ℝ) * (2 * π / n) + π / n + π / n) ∧
    sin (((k + 1) % n : ℕ) * (2 * π / n)) = sin ((k : ℝ) * (2 * π / n) + π / n + π / n) := by
  have hn' : (n : ℝ) ≠ 0 := by exact_mod_cast hn.ne'
  by_cases h : k + 1 = n
  · have e : (k : ℝ) * (2 * π / n) + π / n + π / n = 2 * π := by
      have : (k : ℝ) + 1 = n := by exact_mod_cast h
      field_simp
      rw [← this]; ring
    rw [e, h, Nat.mod_self]
    simp
  · rw [Nat.mod_eq_of_lt (by omega)]
    have e : ((k + 1 : ℕ) : ℝ) * (2 * π / n) = (k : ℝ) * (2 * π / n) + π / n + π / n := by push_cast; ring
    rw [e]; exact ⟨rfl, rfl⟩

theorem tube_sound {n : ℕ} (hn : 0 < n) {r : ℝ} {q : Vec3 × Vec3 × Vec3 × Vec3} (hq : q ∈ tubeQuads n r) {y : Vec3} (h : InQuad q.1 q.2.1 q.2.2.1 q.2.2.2 y) :
    |y 0| ≤ 1 / 2 ∧ (r * cos (π / n)) ^ 2 ≤ y 1 ^ 2 + y 2 ^ 2 ∧ y 1 ^ 2 + y 2 ^ 2 ≤ r ^ 2 := by
  unfold tubeQuads at hq
  rw [List.mem_map] at hq
  obtain ⟨k, hk, rfl⟩ := hq
  rw [List.mem_range] at hk
  obtain ⟨ec, es⟩ := wrap_angle hn hk
  obtain ⟨s, t, u, v, hs, ht, hu, hv, e, rfl⟩ := h
  rw [ec, es]
  set m := (k : ℝ) * (2 * π / n) + π / n with hm
  have em : (k : ℝ) * (2 * π / n) = m - π / n := by rw [hm]; ring
  rw [em]
  set g := π / (n : ℝ)
  have t1 := sin_sq_add_cos_sq m
  have t2 := sin_sq_add_cos_sq g
  have key : (s * (r * cos (m - g)) + t * (r * cos (m + g)) + u * (r * cos (m + g)) + v * (r * cos (m - g))) ^ 2 +
      (s * (r * sin (m - g)) + t * (r * sin (m + g)) + u * (r * sin (m + g)) + v * (r * sin (m - g))) ^ 2 =
      r ^ 2 * (cos g ^ 2 + (s + v - (t + u)) ^ 2 * sin g ^ 2) := by
    have e2 : (s + t + u + v) ^ 2 = 1 := by rw [e]; norm_num
    rw [cos_sub m g, cos_add m g, sin_sub m g, sin_add m g]
    calc _ = r ^ 2 * ((s + t + u + v) ^ 2 * cos g ^ 2 + (s + v - (t + u)) ^ 2 * sin g ^ 2) * (sin m ^ 2 + cos m ^ 2) := by ring
      _ = _ := by rw [t1, e2]; ring
  have hb : (s + v - (t + u)) ^ 2 ≤ 1 := by
    rw [sq_le_one_iff_abs_le_one, abs_le]; constructor <;> linarith
  have hr := sq_nonneg r
  have hsin := sq_nonneg (sin g)
  refine ⟨?_, ?_, ?_⟩
  · rw [abs_le]
    constructor <;> simp <;> linarith
  · simp only [Pi.add_apply, Pi.smul_apply, smul_eq_mul, Matrix.cons_val_one, Matrix.cons_val_zero, Matrix.cons_val]
    rw [key, mul_pow]
    exact mul_le_mul_of_nonneg_left (le_add_of_nonneg_right (mul_nonneg (sq_nonneg _) hsin)) hr
  · simp only [Pi.add_apply, Pi.smul_apply, smul_eq_mul, Matrix.cons_val_one, Matrix.cons_val_zero, Matrix.cons_val]
    rw [key]
    have : cos g ^ 2 + (s + v - (t + u)) ^ 2 * sin g ^ 2 ≤ 1 := by nlinarith
    nlinarith

theorem tube_complete {n : ℕ} (hn : 3 ≤ n) {r : ℝ} (hr : 0 ≤ r) {t a b : ℝ} (ht : |t| ≤ 1 / 2) (hab : a ^ 2 + b ^ 2 = 1) :
    ∃ ρ, r * cos (π / n) ≤ ρ ∧ ρ ≤ r ∧ ∃ q ∈ tubeQuads n r, InQuad q.1 q.2.1 q.2.2.1 q.2.2.2 ![t, ρ * a, ρ * b] := by
  obtain ⟨ang, h0, h1, hx, hy⟩ := Picture2.exists_angle ⟨a, b⟩
  simp only [hab, sqrt_one, one_mul] at hx hy
  obtain ⟨k, hk, hd⟩ := Picture2.exists_part (by omega : 0 < n) h0 h1
  obtain ⟨ec, es⟩ := wrap_angle (by omega : 0 < n) hk
  set m := (k : ℝ) * (2 * π / n) + π / n with hm
  have em : (k : ℝ) * (2 * π / n) = m - π / n := by rw [hm]; ring
  have hn' : (3 : ℝ) ≤ n := by exact_mod_cast hn
  have pp := pi_pos
  have g0 : 0 < π / (n : ℝ) := by positivity
  have g1 : π / (n : ℝ) < π / 2 := by
    rw [div_lt_div_iff₀ (by linarith) (by norm_num)]; nlinarith
  set g := π / (n : ℝ)
  set δ := ang - m with hδ
  have ea : ang = m + δ := by rw [hδ]; ring
  obtain ⟨d0, d1⟩ := abs_le.mp hd
  have cg : 0 < cos g := cos_pos_of_mem_Ioo ⟨by linarith, g1⟩
  have sg : 0 < sin g := sin_pos_of_pos_of_lt_pi g0 (by linarith)
  have cd : 0 < cos δ := cos_pos_of_mem_Ioo ⟨by linarith, by linarith⟩
  have cle : cos g ≤ cos δ := by
    rw [← cos_abs δ]
    exact cos_le_cos_of_nonneg_of_le_pi (abs_nonneg _) (by linarith) hd
  have hsum : 0 ≤ sin (g + δ) := sin_nonneg_of_nonneg_of_le_pi (by linarith) (by linarith)
  have hdif : 0 ≤ sin (g - δ) := sin_nonneg_of_nonneg_of_le_pi (by linarith) (by linarith)
  rw [sin_add] at hsum
  rw [sin_sub] at hdif
  obtain ⟨t0, t1⟩ := abs_le.mp ht
  set κ := sin δ * cos g / (cos δ * sin g) with hκ
  have κ1 : κ ≤ 1 := by rw [hκ, div_le_one (by positivity)]; linarith
  have κ0 : -1 ≤ κ := by rw [hκ, le_div_iff₀ (by positivity)]; linarith
  have eκ : κ * sin g = sin δ * cos g / cos δ := by rw [hκ]; field_simp
  refine ⟨r * cos g / cos δ, ?_, ?_, ?_⟩
  · rw [le_div_iff₀ cd]
    have := cos_le_one δ
    nlinarith [mul_nonneg hr cg.le]
  · rw [div_le_iff₀ cd]
    exact mul_le_mul_of_nonneg_left cle hr
  · refine ⟨_, List.mem_map.mpr ⟨k, List.mem_range.mpr hk, rfl⟩, (1 - κ) / 2 * (1 / 2 - t), (1 + κ) / 2 * (1 / 2 - t), (1 + κ) / 2 * (1 / 2 + t), (1 - κ) / 2 * (1 / 2 + t),
      mul_nonneg (by linarith) (by linarith), mul_nonneg (by linarith) (by linarith), mul_nonneg (by linarith) (by linarith), mul_nonneg (by linarith) (by linarith), by ring, ?_⟩
    rw [ec, es, em, hx, hy, ea]
    apply vext
    · simp; ring
    · simp only [Pi.add_apply, Pi.smul_apply, smul_eq_mul, Matrix.cons_val_one, Matrix.cons_val_zero, Matrix.cons_val]
      have : r * cos g / cos δ * cos (m + δ) = r * (cos m * cos g - sin m * (κ * sin g)) := by
        rw [eκ, cos_add m δ]; field_simp
      rw [this, cos_sub m g, cos_add m g]; ring
    · simp only [Pi.add_apply, Pi.smul_apply, smul_eq_mul, Matrix.cons_val_one, Matrix.cons_val_zero, Matrix.cons_val]
      have : r * cos g / cos δ * sin (m + δ) = r * (sin m * cos g + cos m * (κ * sin g)) := by
        rw [eκ, sin_add m δ]; field_simp
      rw [this, sin_sub m g, sin_add m g]; ring

end Picture3
end Scisim
