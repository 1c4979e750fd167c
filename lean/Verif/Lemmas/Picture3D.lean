import Verif.Spec.Picture3D
import Verif.Lemmas.Maps
import Verif.Lemmas.Portal3D
import Verif.Lemmas.Picture2D
import Mathlib.Tactic.Linarith
import Mathlib.Tactic.FieldSimp
import Mathlib.Tactic.LinearCombination
/-!
# Lemmas about the pictures of the spatial program
-/

namespace Scisim
namespace Picture3

open Matrix Real

/-! ## Vectors -/

theorem vext {v w : Vec3} (h0 : v 0 = w 0) (h1 : v 1 = w 1) (h2 : v 2 = w 2) : v = w := funext (fin3_cases h0 h1 h2)

theorem apply_three (M : GlMatrix) (a b c : Vec3) {s t u : ℝ} (h : s + t + u = 1) :
    M.apply (s • a + t • b + u • c) = s • M.apply a + t • M.apply b + u • M.apply c := by
  unfold GlMatrix.apply
  have e : M.off = (s + t + u) • M.off := by rw [h, one_smul]
  rw [Matrix.mulVec_add, Matrix.mulVec_add, Matrix.mulVec_smul, Matrix.mulVec_smul, Matrix.mulVec_smul]
  conv_lhs => rw [e]
  module

theorem apply_four (M : GlMatrix) (a b c d : Vec3) {s t u v : ℝ} (h : s + t + u + v = 1) :
    M.apply (s • a + t • b + u • c + v • d) = s • M.apply a + t • M.apply b + u • M.apply c + v • M.apply d := by
  unfold GlMatrix.apply
  have e : M.off = (s + t + u + v) • M.off := by rw [h, one_smul]
  rw [Matrix.mulVec_add, Matrix.mulVec_add, Matrix.mulVec_add, Matrix.mulVec_smul, Matrix.mulVec_smul, Matrix.mulVec_smul, Matrix.mulVec_smul]
  conv_lhs => rw [e]
  module

theorem inTriangle_apply (M : GlMatrix) (a b c p : Vec3) :
    InTriangle (M.apply a) (M.apply b) (M.apply c) p ↔ ∃ y, InTriangle a b c y ∧ p = M.apply y := by
  constructor
  · rintro ⟨s, t, u, hs, ht, hu, h, rfl⟩
    exact ⟨_, ⟨s, t, u, hs, ht, hu, h, rfl⟩, (apply_three M a b c h).symm⟩
  · rintro ⟨y, ⟨s, t, u, hs, ht, hu, h, rfl⟩, rfl⟩
    exact ⟨s, t, u, hs, ht, hu, h, apply_three M a b c h⟩

theorem inQuad_apply (M : GlMatrix) (a b c d p : Vec3) :
    InQuad (M.apply a) (M.apply b) (M.apply c) (M.apply d) p ↔ ∃ y, InQuad a b c d y ∧ p = M.apply y := by
  constructor
  · rintro ⟨s, t, u, v, hs, ht, hu, hv, h, rfl⟩
    exact ⟨_, ⟨s, t, u, v, hs, ht, hu, hv, h, rfl⟩, (apply_four M a b c d h).symm⟩
  · rintro ⟨y, ⟨s, t, u, v, hs, ht, hu, hv, h, rfl⟩, rfl⟩
    exact ⟨s, t, u, v, hs, ht, hu, hv, h, apply_four M a b c d h⟩

/-! ## Lists of triangles and quads -/

/-- The vertices of a list of triangles -/
def flat3 (ts : List (Vec3 × Vec3 × Vec3)) : List Vec3 := ts.flatMap fun t => [t.1, t.2.1, t.2.2]

/-- The vertices of a list of quads -/
def flat4 (qs : List (Vec3 × Vec3 × Vec3 × Vec3)) : List Vec3 := qs.flatMap fun t => [t.1, t.2.1, t.2.2.1, t.2.2.2]

theorem flat3_length (ts : List (Vec3 × Vec3 × Vec3)) : (flat3 ts).length = 3 * ts.length := by
  induction ts with
  | nil => rfl
  | cons t ts ih =>
    have : flat3 (t :: ts) = [t.1, t.2.1, t.2.2] ++ flat3 ts := rfl
    rw [this, List.length_append, ih]; simp; ring

theorem flat4_length (ts : List (Vec3 × Vec3 × Vec3 × Vec3)) : (flat4 ts).length = 4 * ts.length := by
  induction ts with
  | nil => rfl
  | cons t ts ih =>
    have : flat4 (t :: ts) = [t.1, t.2.1, t.2.2.1, t.2.2.2] ++ flat4 ts := rfl
    rw [this, List.length_append, ih]; simp; ring

theorem flat3_get (ts : List (Vec3 × Vec3 × Vec3)) (i : ℕ) (h : i < ts.length) :
    (flat3 ts).getD (3 * i) 0 = ts[i].1 ∧ (flat3 ts).getD (3 * i + 1) 0 = ts[i].2.1 ∧ (flat3 ts).getD (3 * i + 2) 0 = ts[i].2.2 := by
  induction ts generalizing i with
  | nil => simp at h
  | cons t ts ih =>
    have e : flat3 (t :: ts) = t.1 :: t.2.1 :: t.2.2 :: flat3 ts := rfl
    cases i with
    | zero => rw [e]; exact ⟨rfl, rfl, rfl⟩
    | succ i =>
      have := ih i (by simpa using h)
      rw [e]
      have a0 : 3 * (i + 1) = 3 * i + 1 + 1 + 1 := by ring
      have a1 : 3 * (i + 1) + 1 = 3 * i + 1 + 1 + 1 + 1 := by ring
      have a2 : 3 * (i + 1) + 2 = 3 * i + 2 + 1 + 1 + 1 := by ring
      rw [a2, a1, a0]
      simpa using this

theorem flat4_get (ts : List (Vec3 × Vec3 × Vec3 × Vec3)) (i : ℕ) (h : i < ts.length) :
    (flat4 ts).getD (4 * i) 0 = ts[i].1 ∧ (flat4 ts).getD (4 * i + 1) 0 = ts[i].2.1 ∧ (flat4 ts).getD (4 * i + 2) 0 = ts[i].2.2.1 ∧
      (flat4 ts).getD (4 * i + 3) 0 = ts[i].2.2.2 := by
  induction ts generalizing i with
  | nil => simp at h
  | cons t ts ih =>
    have e : flat4 (t :: ts) = t.1 :: t.2.1 :: t.2.2.1 :: t.2.2.2 :: flat4 ts := rfl
    cases i with
    | zero => rw [e]; exact ⟨rfl, rfl, rfl, rfl⟩
    | succ i =>
      have := ih i (by simpa using h)
      rw [e]
      have a0 : 4 * (i + 1) = 4 * i + 1 + 1 + 1 + 1 := by ring
      have a1 : 4 * (i + 1) + 1 = 4 * i + 1 + 1 + 1 + 1 + 1 := by ring
      have a2 : 4 * (i + 1) + 2 = 4 * i + 2 + 1 + 1 + 1 + 1 := by ring
      have a3 : 4 * (i + 1) + 3 = 4 * i + 3 + 1 + 1 + 1 + 1 := by ring
      rw [a3, a2, a1, a0]
      simpa using this

theorem covers_flat3 (paint : Paint) (ts : List (Vec3 × Vec3 × Vec3)) (p : Vec3) :
    (⟨.triangles, paint, flat3 ts⟩ : Draw).Covers p ↔ ∃ t ∈ ts, InTriangle t.1 t.2.1 t.2.2 p := by
  simp only [Draw.Covers, flat3_length]
  constructor
  · rintro ⟨i, hi, h⟩
    have hi' : i < ts.length := by omega
    obtain ⟨e0, e1, e2⟩ := flat3_get ts i hi'
    rw [e0, e1, e2] at h
    exact ⟨_, List.getElem_mem hi', h⟩
  · rintro ⟨t, ht, h⟩
    obtain ⟨i, hi', rfl⟩ := List.getElem_of_mem ht
    obtain ⟨e0, e1, e2⟩ := flat3_get ts i hi'
    refine ⟨i, by omega, ?_⟩
    rw [e0, e1, e2]; exact h

theorem covers_flat4 (paint : Paint) (ts : List (Vec3 × Vec3 × Vec3 × Vec3)) (p : Vec3) :
    (⟨.quads, paint, flat4 ts⟩ : Draw).Covers p ↔ ∃ t ∈ ts, InQuad t.1 t.2.1 t.2.2.1 t.2.2.2 p := by
  simp only [Draw.Covers, flat4_length]
  constructor
  · rintro ⟨i, hi, h⟩
    have hi' : i < ts.length := by omega
    obtain ⟨e0, e1, e2, e3⟩ := flat4_get ts i hi'
    rw [e0, e1, e2, e3] at h
    exact ⟨_, List.getElem_mem hi', h⟩
  · rintro ⟨t, ht, h⟩
    obtain ⟨i, hi', rfl⟩ := List.getElem_of_mem ht
    obtain ⟨e0, e1, e2, e3⟩ := flat4_get ts i hi'
    refine ⟨i, by omega, ?_⟩
    rw [e0, e1, e2, e3]; exact h

theorem flat3_map (f : Vec3 → Vec3) (ts : List (Vec3 × Vec3 × Vec3)) : (flat3 ts).map f = flat3 (ts.map fun t => (f t.1, f t.2.1, f t.2.2)) := by
  induction ts with
  | nil => rfl
  | cons t ts ih =>
    have : flat3 (t :: ts) = [t.1, t.2.1, t.2.2] ++ flat3 ts := rfl
    rw [this, List.map_append, ih]; rfl

theorem flat4_map (f : Vec3 → Vec3) (ts : List (Vec3 × Vec3 × Vec3 × Vec3)) :
    (flat4 ts).map f = flat4 (ts.map fun t => (f t.1, f t.2.1, f t.2.2.1, f t.2.2.2)) := by
  induction ts with
  | nil => rfl
  | cons t ts ih =>
    have : flat4 (t :: ts) = [t.1, t.2.1, t.2.2.1, t.2.2.2] ++ flat4 ts := rfl
    rw [this, List.map_append, ih]; rfl

theorem covers_map3 (paint : Paint) (M : GlMatrix) (ts : List (Vec3 × Vec3 × Vec3)) (p : Vec3) :
    (⟨.triangles, paint, (flat3 ts).map M.apply⟩ : Draw).Covers p ↔ ∃ t ∈ ts, ∃ y, InTriangle t.1 t.2.1 t.2.2 y ∧ p = M.apply y := by
  rw [flat3_map, covers_flat3]
  simp only [List.mem_map]
  constructor
  · rintro ⟨_, ⟨t, ht, rfl⟩, h⟩
    exact ⟨t, ht, (inTriangle_apply _ _ _ _ _).mp h⟩
  · rintro ⟨t, ht, h⟩
    exact ⟨_, ⟨t, ht, rfl⟩, (inTriangle_apply _ _ _ _ _).mpr h⟩

theorem covers_map4 (paint : Paint) (M : GlMatrix) (ts : List (Vec3 × Vec3 × Vec3 × Vec3)) (p : Vec3) :
    (⟨.quads, paint, (flat4 ts).map M.apply⟩ : Draw).Covers p ↔ ∃ t ∈ ts, ∃ y, InQuad t.1 t.2.1 t.2.2.1 t.2.2.2 y ∧ p = M.apply y := by
  rw [flat4_map, covers_flat4]
  simp only [List.mem_map]
  constructor
  · rintro ⟨_, ⟨t, ht, rfl⟩, h⟩
    exact ⟨t, ht, (inQuad_apply _ _ _ _ _ _).mp h⟩
  · rintro ⟨t, ht, h⟩
    exact ⟨_, ⟨t, ht, rfl⟩, (inQuad_apply _ _ _ _ _ _).mpr h⟩

/-! ## The triangles of a sphere -/

/-- The triangles `subdivide` writes -/
noncomputable def triangles : ℕ → Vec3 → Vec3 → Vec3 → List (Vec3 × Vec3 × Vec3)
  | 0, v1, v2, v3 => [(v1, v2, v3)]
  | n + 1, v1, v2, v3 =>
    triangles n v1 (midpoint v1 v2) (midpoint v3 v1) ++ triangles n v2 (midpoint v2 v3) (midpoint v1 v2) ++
    triangles n v3 (midpoint v3 v1) (midpoint v2 v3) ++ triangles n (midpoint v1 v2) (midpoint v2 v3) (midpoint v3 v1)

theorem triangles_length (n : ℕ) (v1 v2 v3 : Vec3) : (triangles n v1 v2 v3).length = 4 ^ n := by
  induction n generalizing v1 v2 v3 with
  | zero => rfl
  | succ n ih => simp only [triangles, List.length_append, ih]; ring

theorem flat3_append (a b : List (Vec3 × Vec3 × Vec3)) : flat3 (a ++ b) = flat3 a ++ flat3 b := List.flatMap_append

theorem subdivide_ok (cap n : ℕ) (v1 v2 v3 : Vec3) (acc : List Vec3) (h : acc.length + 3 * 4 ^ n ≤ cap) :
    subdivide cap n v1 v2 v3 acc = .ok (acc ++ flat3 (triangles n v1 v2 v3)) := by
  induction n generalizing v1 v2 v3 acc with
  | zero =>
    simp only [subdivide, saveTriangle]
    rw [if_pos (by omega)]
    rfl
  | succ n ih =>
    have e : 4 ^ (n + 1) = 4 * 4 ^ n := by ring
    rw [e] at h
    simp only [subdivide]
    rw [ih _ _ _ _ (by omega)]
    simp only [Outcome.bind]
    rw [ih _ _ _ _ (by simp only [List.length_append, flat3_length, triangles_length]; omega)]
    simp only
    rw [ih _ _ _ _ (by simp only [List.length_append, flat3_length, triangles_length]; omega)]
    simp only
    rw [ih _ _ _ _ (by simp only [List.length_append, flat3_length, triangles_length]; omega)]
    simp only [triangles, flat3_append, List.append_assoc]

theorem numTriangles_eq (n : ℕ) (h : 6 * 4 ^ n < 2 ^ 32) : numTriangles n = 2 * 4 ^ n := by
  induction n with
  | zero => rfl
  | succ n ih =>
    have e : 4 ^ (n + 1) = 4 * 4 ^ n := by ring
    rw [e] at h ⊢
    rw [numTriangles, ih (by omega), Nat.mod_eq_of_lt (by omega)]
    ring

/-- The triangles of a quarter of the sphere -/
noncomputable def quarter (n : ℕ) : List (Vec3 × Vec3 × Vec3) := triangles n ![0, 0, 1] ![1, 0, 0] ![0, 1, 0] ++ triangles n ![0, 0, -1] ![0, 1, 0] ![1, 0, 0]

theorem generateSphere_ok (n : ℕ) (h : 6 * 4 ^ n < 2 ^ 32) : generateSphere n = .ok (flat3 (quarter n)) ∧ (flat3 (quarter n)).length = 6 * 4 ^ n := by
  have hc : sphereCapacity n = 6 * 4 ^ n := by
    unfold sphereCapacity
    rw [numTriangles_eq n h, Nat.mod_eq_of_lt (by omega)]; ring
  have hl : (flat3 (quarter n)).length = 6 * 4 ^ n := by
    unfold quarter
    rw [flat3_length, List.length_append, triangles_length, triangles_length]; ring
  refine ⟨?_, hl⟩
  unfold generateSphere
  rw [subdivide_ok _ _ _ _ _ _ (by rw [hc]; simp)]
  simp only [Outcome.bind]
  rw [subdivide_ok _ _ _ _ _ _ (by rw [hc]; simp only [List.nil_append, flat3_length, triangles_length]; omega)]
  simp only [List.nil_append, ← flat3_append]
  change (if (flat3 (quarter n)).length = _ then Outcome.ok (flat3 (quarter n)) else _) = _
  rw [if_pos (by rw [hl, hc])]

/-! ### How close the triangles are to the sphere -/

/-- A lower bound for the cosines of the sides after one subdivision -/
noncomputable def sharper (c : ℝ) : ℝ := (1 + 3 * c) / (2 * (1 + c))

theorem sharper_nonneg {c : ℝ} (h : 0 ≤ c) : 0 ≤ sharper c := by unfold sharper; positivity

theorem sharper_iterate (n : ℕ) : sharper^[n] 0 = (4 ^ n - 1) / (4 ^ n + 2) := by
  induction n with
  | zero => simp
  | succ n ih =>
    rw [Function.iterate_succ_apply', ih]
    unfold sharper
    have h : (0 : ℝ) < 4 ^ n := by positivity
    have h1 : (4 : ℝ) ^ n + 2 ≠ 0 := by positivity
    have h2 : (1 : ℝ) + (4 ^ n - 1) / (4 ^ n + 2) = (2 * 4 ^ n + 1) / (4 ^ n + 2) := by field_simp; ring
    rw [h2]
    have h3 : (2 : ℝ) * 4 ^ n + 1 ≠ 0 := by positivity
    have h4 : (4 : ℝ) ^ (n + 1) + 2 ≠ 0 := by positivity
    rw [pow_succ] at h4 ⊢
    field_simp
    ring

/-- Unit vectors in the quarter whose pairwise inner products are at least `c` -/
def Tight (c : ℝ) (v1 v2 v3 : Vec3) : Prop :=
  (∀ v ∈ [v1, v2, v3], dot3 v v = 1 ∧ 0 ≤ v 0 ∧ 0 ≤ v 1) ∧ c ≤ dot3 v1 v2 ∧ c ≤ dot3 v2 v3 ∧ c ≤ dot3 v3 v1

theorem dot3_comm' (v w : Vec3) : dot3 v w = dot3 w v := by unfold dot3; ring

theorem midpoint_spec {v w : Vec3} (hv : dot3 v v = 1) (hw : dot3 w w = 1) (h : 0 ≤ dot3 v w) :
    ∃ k, 0 < k ∧ k ^ 2 * (2 * (1 + dot3 v w)) = 1 ∧ midpoint v w = k • (v + w) := by
  have hn : norm3 ((1 / 2 : ℝ) • (v + w)) = sqrt ((1 + dot3 v w) / 2) := by
    unfold norm3
    congr 1
    simp only [Pi.smul_apply, Pi.add_apply, smul_eq_mul]
    unfold dot3 at *
    linear_combination (1 / 4 : ℝ) * hv + (1 / 4 : ℝ) * hw
  have hp : 0 < sqrt ((1 + dot3 v w) / 2) := sqrt_pos.mpr (by linarith)
  have hs : sqrt ((1 + dot3 v w) / 2) ^ 2 = (1 + dot3 v w) / 2 := sq_sqrt (by linarith)
  refine ⟨1 / (2 * sqrt ((1 + dot3 v w) / 2)), by positivity, ?_, ?_⟩
  · rw [div_pow, mul_pow, hs]
    have : 1 + dot3 v w ≠ 0 := by linarith
    field_simp
  · unfold midpoint normalized3
    rw [hn, if_pos hp]
    funext k
    simp only [Pi.smul_apply, Pi.add_apply, smul_eq_mul]
    field_simp

theorem dot3_smul_add (k l : ℝ) (a b c d : Vec3) :
    dot3 (k • (a + b)) (l • (c + d)) = k * l * (dot3 a c + dot3 a d + dot3 b c + dot3 b d) := by
  simp only [dot3, Pi.smul_apply, Pi.add_apply, smul_eq_mul]; ring

theorem dot3_add_smul (l : ℝ) (a c d : Vec3) : dot3 a (l • (c + d)) = l * (dot3 a c + dot3 a d) := by
  simp only [dot3, Pi.smul_apply, Pi.add_apply, smul_eq_mul]; ring

theorem dot3_le_one {v w : Vec3} (hv : dot3 v v = 1) (hw : dot3 w w = 1) : dot3 v w ≤ 1 := by
  unfold dot3 at *
  nlinarith [sq_nonneg (v 0 - w 0), sq_nonneg (v 1 - w 1), sq_nonneg (v 2 - w 2)]

theorem corner_bound {c a k : ℝ} (hc : 0 ≤ c) (hc1 : c ≤ 1) (ha : c ≤ a) (hk : 0 < k) (e : k ^ 2 * (2 * (1 + a)) = 1) : sharper c ≤ k * (1 + a) := by
  have h1 : 0 < 1 + a := by linarith
  have hm : (k * (1 + a)) ^ 2 = (1 + a) / 2 := by linear_combination (1 + a) / 2 * e
  refine abs_le_of_sq_le_sq' ?_ (by positivity) |>.2
  rw [hm]
  unfold sharper
  rw [div_pow, div_le_div_iff₀ (by positivity) (by norm_num)]
  have h2 : (1 + 3 * c) ^ 2 ≤ 2 * (1 + c) ^ 3 := by nlinarith [mul_nonneg (sq_nonneg (1 - c)) (by linarith : 0 ≤ 1 + 2 * c)]
  have h3 : (1 + c) ^ 3 ≤ (1 + a) * (1 + c) ^ 2 := by nlinarith [sq_nonneg (1 + c)]
  nlinarith

theorem side_bound {c a b e k l : ℝ} (hc : 0 ≤ c) (hc1 : c ≤ 1) (ha : c ≤ a) (hb : c ≤ b) (he : c ≤ e) (hk : 0 < k) (hl : 0 < l)
    (ek : k ^ 2 * (2 * (1 + a)) = 1) (el : l ^ 2 * (2 * (1 + b)) = 1) : sharper c ≤ k * l * (1 + a + b + e) := by
  have h1 : 0 < 1 + a := by linarith
  have h2 : 0 < 1 + b := by linarith
  have hab : 0 < 2 + a + b := by linarith
  have hkl : 1 ≤ k * l * (2 + a + b) := by
    refine abs_le_of_sq_le_sq' ?_ (by positivity) |>.2
    have e1 : (k * l) ^ 2 * (4 * ((1 + a) * (1 + b))) = 1 := by
      calc (k * l) ^ 2 * (4 * ((1 + a) * (1 + b))) = (k ^ 2 * (2 * (1 + a))) * (l ^ 2 * (2 * (1 + b))) := by ring
        _ = 1 := by rw [ek, el, one_mul]
    have : (k * l * (2 + a + b)) ^ 2 = 1 + (k * l) ^ 2 * (a - b) ^ 2 := by linear_combination e1
    rw [this]
    nlinarith [mul_nonneg (sq_nonneg (k * l)) (sq_nonneg (a - b))]
  have h3 : sharper c * (2 + a + b) ≤ 1 + a + b + e := by
    unfold sharper
    rw [div_mul_eq_mul_div, div_le_iff₀ (by positivity)]
    nlinarith [mul_nonneg (by linarith : 0 ≤ 1 - c) (by linarith : 0 ≤ a + b - 2 * c), mul_nonneg (by linarith : (0:ℝ) ≤ 1 + c) (by linarith : 0 ≤ e - c)]
  have hs := sharper_nonneg hc
  calc sharper c ≤ sharper c * (k * l * (2 + a + b)) := by nlinarith
    _ = k * l * (sharper c * (2 + a + b)) := by ring
    _ ≤ k * l * (1 + a + b + e) := mul_le_mul_of_nonneg_left h3 (by positivity)

theorem mid_unit {v w : Vec3} (hv : dot3 v v = 1 ∧ 0 ≤ v 0 ∧ 0 ≤ v 1) (hw : dot3 w w = 1 ∧ 0 ≤ w 0 ∧ 0 ≤ w 1) (h : 0 ≤ dot3 v w) :
    dot3 (midpoint v w) (midpoint v w) = 1 ∧ 0 ≤ midpoint v w 0 ∧ 0 ≤ midpoint v w 1 := by
  obtain ⟨k, hk, e, hm⟩ := midpoint_spec hv.1 hw.1 h
  rw [hm]
  refine ⟨?_, mul_nonneg hk.le (add_nonneg hv.2.1 hw.2.1), mul_nonneg hk.le (add_nonneg hv.2.2 hw.2.2)⟩
  rw [dot3_smul_add, hv.1, hw.1, dot3_comm' w v]
  linear_combination e

theorem mid_corner {c : ℝ} (hc : 0 ≤ c) {v w : Vec3} (hv : dot3 v v = 1) (hw : dot3 w w = 1) (h : c ≤ dot3 v w) : sharper c ≤ dot3 v (midpoint v w) := by
  obtain ⟨k, hk, e, hm⟩ := midpoint_spec hv hw (hc.trans h)
  rw [hm, dot3_add_smul, hv]
  exact corner_bound hc (h.trans (dot3_le_one hv hw)) h hk e

theorem mid_corner' {c : ℝ} (hc : 0 ≤ c) {v w : Vec3} (hv : dot3 v v = 1) (hw : dot3 w w = 1) (h : c ≤ dot3 v w) : sharper c ≤ dot3 w (midpoint v w) := by
  obtain ⟨k, hk, e, hm⟩ := midpoint_spec hv hw (hc.trans h)
  rw [hm, dot3_add_smul, hw, dot3_comm' w v, add_comm (dot3 v w)]
  exact corner_bound hc (h.trans (dot3_le_one hv hw)) h hk e

theorem mid_side {c : ℝ} (hc : 0 ≤ c) {v1 v2 v3 : Vec3} (h1 : dot3 v1 v1 = 1) (h2 : dot3 v2 v2 = 1) (h3 : dot3 v3 v3 = 1)
    (h12 : c ≤ dot3 v1 v2) (h23 : c ≤ dot3 v2 v3) (h31 : c ≤ dot3 v3 v1) : sharper c ≤ dot3 (midpoint v1 v2) (midpoint v2 v3) := by
  obtain ⟨k, hk, ek, hm⟩ := midpoint_spec h1 h2 (hc.trans h12)
  obtain ⟨l, hl, el, hm'⟩ := midpoint_spec h2 h3 (hc.trans h23)
  rw [hm, hm', dot3_smul_add, h2, dot3_comm' v1 v3]
  have := side_bound hc (h12.trans (dot3_le_one h1 h2)) h12 h23 h31 hk hl ek el
  linarith

theorem Tight.children {c : ℝ} (hc : 0 ≤ c) {v1 v2 v3 : Vec3} (h : Tight c v1 v2 v3) :
    Tight (sharper c) v1 (midpoint v1 v2) (midpoint v3 v1) ∧ Tight (sharper c) v2 (midpoint v2 v3) (midpoint v1 v2) ∧
    Tight (sharper c) v3 (midpoint v3 v1) (midpoint v2 v3) ∧ Tight (sharper c) (midpoint v1 v2) (midpoint v2 v3) (midpoint v3 v1) := by
  obtain ⟨hu, h12, h23, h31⟩ := h
  have u1 := hu v1 (by simp)
  have u2 := hu v2 (by simp)
  have u3 := hu v3 (by simp)
  have m12 := mid_unit u1 u2 (hc.trans h12)
  have m23 := mid_unit u2 u3 (hc.trans h23)
  have m31 := mid_unit u3 u1 (hc.trans h31)
  have s1 := mid_side hc u1.1 u2.1 u3.1 h12 h23 h31
  have s2 := mid_side hc u2.1 u3.1 u1.1 h23 h31 h12
  have s3 := mid_side hc u3.1 u1.1 u2.1 h31 h12 h23
  have c1 := mid_corner hc u1.1 u2.1 h12
  have c2 := mid_corner hc u2.1 u3.1 h23
  have c3 := mid_corner hc u3.1 u1.1 h31
  have d1 := mid_corner' hc u1.1 u2.1 h12
  have d2 := mid_corner' hc u2.1 u3.1 h23
  have d3 := mid_corner' hc u3.1 u1.1 h31
  refine ⟨⟨?_, c1, ?_, ?_⟩, ⟨?_, c2, ?_, ?_⟩, ⟨?_, c3, ?_, ?_⟩, ⟨?_, s1, s2, s3⟩⟩
  · simp only [List.mem_cons, List.not_mem_nil, or_false, forall_eq_or_imp, forall_eq]; exact ⟨u1, m12, m31⟩
  · rw [dot3_comm']; exact s3
  · rw [dot3_comm']; exact d3
  · simp only [List.mem_cons, List.not_mem_nil, or_false, forall_eq_or_imp, forall_eq]; exact ⟨u2, m23, m12⟩
  · rw [dot3_comm']; exact s1
  · rw [dot3_comm']; exact d1
  · simp only [List.mem_cons, List.not_mem_nil, or_false, forall_eq_or_imp, forall_eq]; exact ⟨u3, m31, m23⟩
  · rw [dot3_comm']; exact s2
  · rw [dot3_comm']; exact d2
  · simp only [List.mem_cons, List.not_mem_nil, or_false, forall_eq_or_imp, forall_eq]; exact ⟨m12, m23, m31⟩

theorem triangles_tight (n : ℕ) {c : ℝ} (hc : 0 ≤ c) {v1 v2 v3 : Vec3} (h : Tight c v1 v2 v3) {t : Vec3 × Vec3 × Vec3} (ht : t ∈ triangles n v1 v2 v3) :
    Tight (sharper^[n] c) t.1 t.2.1 t.2.2 := by
  induction n generalizing c v1 v2 v3 with
  | zero =>
    simp only [triangles, List.mem_singleton] at ht
    subst ht; exact h
  | succ n ih =>
    obtain ⟨h1, h2, h3, h4⟩ := h.children hc
    simp only [triangles, List.mem_append] at ht
    rw [Function.iterate_succ_apply]
    rcases ht with ((ht | ht) | ht) | ht
    · exact ih (sharper_nonneg hc) h1 ht
    · exact ih (sharper_nonneg hc) h2 ht
    · exact ih (sharper_nonneg hc) h3 ht
    · exact ih (sharper_nonneg hc) h4 ht

theorem quarter_tight (n : ℕ) {t : Vec3 × Vec3 × Vec3} (ht : t ∈ quarter n) : Tight ((4 ^ n - 1) / (4 ^ n + 2)) t.1 t.2.1 t.2.2 := by
  rw [← sharper_iterate]
  unfold quarter at ht
  rw [List.mem_append] at ht
  rcases ht with ht | ht
  · refine triangles_tight n le_rfl ?_ ht
    simp [Tight, dot3]
  · refine triangles_tight n le_rfl ?_ ht
    simp [Tight, dot3]

theorem near_of_tight {c : ℝ} (hc1 : c ≤ 1) {v1 v2 v3 y : Vec3} (h : Tight c v1 v2 v3) (hy : InTriangle v1 v2 v3 y) :
    (1 + 2 * c) / 3 ≤ sqLen y ∧ sqLen y ≤ 1 ∧ 0 ≤ y 0 ∧ 0 ≤ y 1 := by
  obtain ⟨hu, h12, h23, h31⟩ := h
  have u1 := hu v1 (by simp)
  have u2 := hu v2 (by simp)
  have u3 := hu v3 (by simp)
  obtain ⟨s, t, u, hs, ht, hu', hsum, rfl⟩ := hy
  have e : sqLen (s • v1 + t • v2 + u • v3) = s ^ 2 + t ^ 2 + u ^ 2 + 2 * (s * t * dot3 v1 v2 + t * u * dot3 v2 v3 + u * s * dot3 v3 v1) := by
    have a1 := u1.1
    have a2 := u2.1
    have a3 := u3.1
    simp only [sqLen, Pi.add_apply, Pi.smul_apply, smul_eq_mul]
    unfold dot3 at *
    linear_combination s ^ 2 * a1 + t ^ 2 * a2 + u ^ 2 * a3
  have l12 := dot3_le_one u1.1 u2.1
  have l23 := dot3_le_one u2.1 u3.1
  have l31 := dot3_le_one u3.1 u1.1
  have p1 := mul_nonneg hs ht
  have p2 := mul_nonneg ht hu'
  have p3 := mul_nonneg hu' hs
  have hq : (s + t + u) ^ 2 = 1 := by rw [hsum]; norm_num
  refine ⟨?_, ?_, ?_, ?_⟩
  · rw [e]
    have a1 := mul_le_mul_of_nonneg_left h12 p1
    have a2 := mul_le_mul_of_nonneg_left h23 p2
    have a3 := mul_le_mul_of_nonneg_left h31 p3
    have : (1 : ℝ) / 3 ≤ s ^ 2 + t ^ 2 + u ^ 2 := by nlinarith [sq_nonneg (s - t), sq_nonneg (t - u), sq_nonneg (u - s)]
    nlinarith [mul_nonneg (by linarith : 0 ≤ 1 - c) (by linarith : 0 ≤ s ^ 2 + t ^ 2 + u ^ 2 - 1 / 3)]
  · rw [e]
    have a1 := mul_le_mul_of_nonneg_left l12 p1
    have a2 := mul_le_mul_of_nonneg_left l23 p2
    have a3 := mul_le_mul_of_nonneg_left l31 p3
    nlinarith
  · simp only [Pi.add_apply, Pi.smul_apply, smul_eq_mul]
    have := mul_nonneg hs u1.2.1
    have := mul_nonneg ht u2.2.1
    have := mul_nonneg hu' u3.2.1
    linarith
  · simp only [Pi.add_apply, Pi.smul_apply, smul_eq_mul]
    have := mul_nonneg hs u1.2.2
    have := mul_nonneg ht u2.2.2
    have := mul_nonneg hu' u3.2.2
    linarith

theorem near_of_quarter (n : ℕ) {t : Vec3 × Vec3 × Vec3} (ht : t ∈ quarter n) {y : Vec3} (hy : InTriangle t.1 t.2.1 t.2.2 y) :
    4 ^ n / (4 ^ n + 2) ≤ sqLen y ∧ sqLen y ≤ 1 ∧ 0 ≤ y 0 ∧ 0 ≤ y 1 := by
  have h : (0 : ℝ) < 4 ^ n := by positivity
  have := near_of_tight (c := (4 ^ n - 1) / (4 ^ n + 2)) (by rw [div_le_one (by positivity)]; linarith) (quarter_tight n ht) hy
  have e : (1 + 2 * (((4 : ℝ) ^ n - 1) / (4 ^ n + 2))) / 3 = 4 ^ n / (4 ^ n + 2) := by
    have : (4 : ℝ) ^ n + 2 ≠ 0 := by positivity
    field_simp; ring
  rwa [e] at this

/-! ### Every direction meets a triangle -/

/-- The vector is a combination of the corners with weights that are not negative -/
def InCone (t : Vec3 × Vec3 × Vec3) (d : Vec3) : Prop := ∃ a b c : ℝ, 0 ≤ a ∧ 0 ≤ b ∧ 0 ≤ c ∧ d = a • t.1 + b • t.2.1 + c • t.2.2

theorem triangles_cone (n : ℕ) {c : ℝ} (hc : 0 ≤ c) {v1 v2 v3 : Vec3} (h : Tight c v1 v2 v3) {d : Vec3} (hd : InCone (v1, v2, v3) d) :
    ∃ t ∈ triangles n v1 v2 v3, InCone t d := by
  induction n generalizing c v1 v2 v3 with
  | zero => exact ⟨_, by simp [triangles], hd⟩
  | succ n ih =>
    obtain ⟨h1, h2, h3, h4⟩ := h.children hc
    obtain ⟨hu, h12, h23, h31⟩ := h
    obtain ⟨k, hk, -, hm⟩ := midpoint_spec (hu v1 (by simp)).1 (hu v2 (by simp)).1 (hc.trans h12)
    obtain ⟨l, hl, -, hm'⟩ := midpoint_spec (hu v2 (by simp)).1 (hu v3 (by simp)).1 (hc.trans h23)
    obtain ⟨m, hm0, -, hm''⟩ := midpoint_spec (hu v3 (by simp)).1 (hu v1 (by simp)).1 (hc.trans h31)
    obtain ⟨x, y, z, hx, hy, hz, rfl⟩ := hd
    simp only [triangles, List.mem_append]
    by_cases c1 : y + z ≤ x
    · obtain ⟨t, ht, hd⟩ := ih (sharper_nonneg hc) h1 (show InCone (v1, midpoint v1 v2, midpoint v3 v1) (x • v1 + y • v2 + z • v3) from
        ⟨x - y - z, y / k, z / m, by linarith, by positivity, by positivity, by
          simp only [hm, hm'']
          rw [smul_smul, smul_smul, div_mul_cancel₀ _ hk.ne', div_mul_cancel₀ _ hm0.ne']; module⟩)
      exact ⟨t, .inl (.inl (.inl ht)), hd⟩
    by_cases c2 : z + x ≤ y
    · obtain ⟨t, ht, hd⟩ := ih (sharper_nonneg hc) h2 (show InCone (v2, midpoint v2 v3, midpoint v1 v2) (x • v1 + y • v2 + z • v3) from
        ⟨y - z - x, z / l, x / k, by linarith, by positivity, by positivity, by
          simp only [hm, hm']
          rw [smul_smul, smul_smul, div_mul_cancel₀ _ hk.ne', div_mul_cancel₀ _ hl.ne']; module⟩)
      exact ⟨t, .inl (.inl (.inr ht)), hd⟩
    by_cases c3 : x + y ≤ z
    · obtain ⟨t, ht, hd⟩ := ih (sharper_nonneg hc) h3 (show InCone (v3, midpoint v3 v1, midpoint v2 v3) (x • v1 + y • v2 + z • v3) from
        ⟨z - x - y, x / m, y / l, by linarith, by positivity, by positivity, by
          simp only [hm'', hm']
          rw [smul_smul, smul_smul, div_mul_cancel₀ _ hm0.ne', div_mul_cancel₀ _ hl.ne']; module⟩)
      exact ⟨t, .inl (.inr ht), hd⟩
    · push Not at c1 c2 c3
      obtain ⟨t, ht, hd⟩ := ih (sharper_nonneg hc) h4 (show InCone (midpoint v1 v2, midpoint v2 v3, midpoint v3 v1) (x • v1 + y • v2 + z • v3) from
        ⟨(x + y - z) / 2 / k, (y + z - x) / 2 / l, (z + x - y) / 2 / m, div_nonneg (by linarith) hk.le, div_nonneg (by linarith) hl.le, div_nonneg (by linarith) hm0.le, by
          simp only [hm, hm', hm'']
          rw [smul_smul, smul_smul, smul_smul, div_mul_cancel₀ _ hk.ne', div_mul_cancel₀ _ hl.ne', div_mul_cancel₀ _ hm0.ne']; module⟩)
      exact ⟨t, .inr ht, hd⟩

theorem quarter_covers (n : ℕ) {d : Vec3} (h0 : 0 ≤ d 0) (h1 : 0 ≤ d 1) (hd : sqLen d = 1) :
    ∃ t ∈ quarter n, ∃ s : ℝ, 0 ≤ s ∧ InTriangle t.1 t.2.1 t.2.2 (s • d) := by
  have key : ∃ t ∈ quarter n, InCone t d := by
    unfold quarter
    simp only [List.mem_append]
    rcases le_total 0 (d 2) with h2 | h2
    · obtain ⟨t, ht, h⟩ := triangles_cone n (c := 0) le_rfl (v1 := ![0, 0, 1]) (v2 := ![1, 0, 0]) (v3 := ![0, 1, 0]) (by simp [Tight, dot3]) (d := d)
        ⟨d 2, d 0, d 1, h2, h0, h1, by apply vext <;> simp⟩
      exact ⟨t, .inl ht, h⟩
    · obtain ⟨t, ht, h⟩ := triangles_cone n (c := 0) le_rfl (v1 := ![0, 0, -1]) (v2 := ![0, 1, 0]) (v3 := ![1, 0, 0]) (by simp [Tight, dot3]) (d := d)
        ⟨-d 2, d 1, d 0, by linarith, h1, h0, by apply vext <;> simp⟩
      exact ⟨t, .inr ht, h⟩
  obtain ⟨t, ht, a, b, c, ha, hb, hc, e⟩ := key
  have hpos : 0 < a + b + c := by
    rcases lt_or_eq_of_le (by positivity : 0 ≤ a + b + c) with h | h
    · exact h
    · exfalso
      have ha' : a = 0 := by linarith
      have hb' : b = 0 := by linarith
      have hc' : c = 0 := by linarith
      rw [ha', hb', hc'] at e
      simp only [zero_smul, add_zero] at e
      rw [e] at hd
      simp [sqLen] at hd
  refine ⟨t, ht, 1 / (a + b + c), by positivity, a / (a + b + c), b / (a + b + c), c / (a + b + c), by positivity, by positivity, by positivity, by field_simp, ?_⟩
  rw [e]
  module

end Picture3
end Scisim
