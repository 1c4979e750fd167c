import Verif.Lemmas.Segments3D
import Verif.Lemmas.BoxBox3D

/-!
# C74: segments, staples, and a box against a ball

`closestPointSegmentSegment p1 q1 p2 q2` gives the closest points of two segments and their squared distance, `stapleStapleIsActive` says whether two staples
touch, `stapleHalfPlaneActiveSet` which corners of a staple touch a half space, and `boxSphereActiveSet` where a box and a ball touch. The sets of points are those of
Spec/Geometry3D.lean; `segment` is Mathlib's. Short segments are those whose squared length is at most `distEps`, which is 1e-8.
-/

namespace Scisim

open Matrix

/-- **C74, closest points.** The points lie on the segments, the value returned is their squared distance, and unless one of the segments is short no two points of the
segments are closer. -/
theorem C74_segments (p1 q1 p2 q2 : Vec3) :
    (closestPointSegmentSegment p1 q1 p2 q2).c1 ∈ segment ℝ p1 q1 ∧ (closestPointSegmentSegment p1 q1 p2 q2).c2 ∈ segment ℝ p2 q2 ∧
    (closestPointSegmentSegment p1 q1 p2 q2).c1 = p1 + (closestPointSegmentSegment p1 q1 p2 q2).s • (q1 - p1) ∧
    (closestPointSegmentSegment p1 q1 p2 q2).c2 = p2 + (closestPointSegmentSegment p1 q1 p2 q2).t • (q2 - p2) ∧
    (closestPointSegmentSegment p1 q1 p2 q2).distSq =
      ((closestPointSegmentSegment p1 q1 p2 q2).c1 - (closestPointSegmentSegment p1 q1 p2 q2).c2) ⬝ᵥ
      ((closestPointSegmentSegment p1 q1 p2 q2).c1 - (closestPointSegmentSegment p1 q1 p2 q2).c2) ∧
    (1 / 10 ^ 8 < (q1 - p1) ⬝ᵥ (q1 - p1) → 1 / 10 ^ 8 < (q2 - p2) ⬝ᵥ (q2 - p2) → ∀ x ∈ segment ℝ p1 q1, ∀ y ∈ segment ℝ p2 q2,
      (closestPointSegmentSegment p1 q1 p2 q2).distSq ≤ (x - y) ⬝ᵥ (x - y)) := by
  have he : distEps = 1 / 10 ^ 8 := by norm_num [distEps]
  refine ⟨(closest_mem ..).1, (closest_mem ..).2, rfl, rfl, rfl, fun h1 h2 x hx y hy => ?_⟩
  rw [← he] at h1 h2
  exact closest_le h1 h2 hx hy

/-- Two segments that cross in space, one above the other: the closest points are inside both -/
example : (closestPointSegmentSegment ![-1, 0, 0] ![1, 0, 0] ![0, -1, 1] ![0, 3, 1]).distSq = 1 := by
  simp [closestPointSegmentSegment, segmentParameters, clampScalar, distEps, dotProduct, Fin.sum_univ_three]
  norm_num

/-- **C74, short segments.** Whatever the segments, the distance of the points is at most that of any two points of the segments plus 2/10000. -/
theorem C74_short (p1 q1 p2 q2 : Vec3) {x y : Vec3} (hx : x ∈ segment ℝ p1 q1) (hy : y ∈ segment ℝ p2 q2) :
    Real.sqrt (closestPointSegmentSegment p1 q1 p2 q2).distSq ≤ Real.sqrt ((x - y) ⬝ᵥ (x - y)) + 2 / 10000 := by
  have h := closest_within p1 q1 p2 q2 hx hy
  rw [len3_eq_sqrt, len3_eq_sqrt] at h
  exact h

/-- **C74 fails for short segments.** A segment of length 1/10000 that ends on another one: the distance is not zero. -/
theorem C74_false_short : ∃ p1 q1 p2 q2 x : Vec3, x ∈ segment ℝ p1 q1 ∧ x ∈ segment ℝ p2 q2 ∧ 0 < (closestPointSegmentSegment p1 q1 p2 q2).distSq := by
  refine ⟨0, ![1 / 10000, 0, 0], ![1 / 10000, 0, 0], ![1 / 10000, 0, 1], ![1 / 10000, 0, 0], right_mem_segment _ _ _, left_mem_segment _ _ _, ?_⟩
  simp [closestPointSegmentSegment, segmentParameters, clampScalar, distEps, dotProduct, Fin.sum_univ_three]
  norm_num

/-- **C74, staples.** Two staples whose legs and backs are not short are said to touch exactly if they have a point in common. -/
theorem C74_staples (cm0 cm1 : Vec3) (R0 R1 : Mat3) (s0 s1 : Staple) (hR0 : R0.transpose * R0 = 1) (hR1 : R1.transpose * R1 = 1) (hr0 : 0 ≤ s0.r) (hr1 : 0 ≤ s1.r)
    (hw0 : 1 / 10 ^ 8 < s0.w ^ 2) (hl0 : 1 / 10 ^ 8 < s0.l ^ 2) (hw1 : 1 / 10 ^ 8 < s1.w ^ 2) (hl1 : 1 / 10 ^ 8 < s1.l ^ 2) :
    stapleStapleIsActive cm0 R0 s0 cm1 R1 s1 = true ↔ (stapleSet3 cm0 R0 s0 ∩ stapleSet3 cm1 R1 s1).Nonempty := by
  have he : distEps = 1 / 10 ^ 8 := by norm_num [distEps]
  rw [← he] at hw0 hl0 hw1 hl1
  refine ⟨stapleStapleIsActive_share hr0 hr1, ?_⟩
  rw [stapleStapleIsActive_iff]
  · rintro ⟨z, hz0, hz1⟩
    obtain ⟨e0, h0, x, hx, hzx⟩ := staple_mem.mp hz0
    obtain ⟨e1, h1, y, hy, hzy⟩ := staple_mem.mp hz1
    refine ⟨e0, h0, e1, h1, (closest_le (edge_long hR0 hw0 hl0 h0) (edge_long hR1 hw1 hl1 h1) hx hy).trans ?_⟩
    exact (balls_share hr0 hr1).mp ⟨z, hzx, hzy⟩

/-- A staple of width 3, legs of length 2 and thickness 1 touches its copy one unit away -/
example : stapleStapleIsActive 0 1 (Staple.make 3 2 1) ![1, 0, 0] 1 (Staple.make 3 2 1) = true := by
  rw [C74_staples _ _ _ _ _ _ (by simp) (by simp) (by norm_num [Staple.make]) (by norm_num [Staple.make]) (by norm_num [Staple.make]) (by norm_num [Staple.make])
    (by norm_num [Staple.make]) (by norm_num [Staple.make])]
  refine ⟨(Staple.make 3 2 1).corner 2, staple_mem.mpr ⟨1, by norm_num, _, right_mem_segment _ _ _, ?_⟩, staple_mem.mpr ⟨1, by norm_num, _,
    mem_segment_iff.mpr ⟨1 / 2, by norm_num, by norm_num, rfl⟩, ?_⟩⟩
  · rw [ballSet3, Set.mem_ofPred_eq]
    simp [Staple.corner, Staple.corners, Staple.make]
  · rw [ballSet3, Set.mem_ofPred_eq]
    simp [Staple.corner, Staple.corners, Staple.make]
    norm_num

/-- **C74, a staple and a half space.** A corner is listed exactly if the ball around it meets the half space behind the plane through `x0` with the unit normal `n`; no
corner is listed exactly if the staple does not meet the half space. -/
theorem C74_plane (cm : Vec3) (R : Mat3) (s : Staple) (x0 n : Vec3) (hn : n ⬝ᵥ n = 1) (hr : 0 ≤ s.r) :
    (∀ i, i ∈ stapleHalfPlaneActiveSet cm R s x0 n ↔ i < 4 ∧ ∃ z ∈ ballSet3 (R *ᵥ s.corner i + cm) s.r, n ⬝ᵥ (z - x0) ≤ 0) ∧
    (stapleHalfPlaneActiveSet cm R s x0 n = [] ↔ ∀ z ∈ stapleSet3 cm R s, 0 < n ⬝ᵥ (z - x0)) := by
  have hn1 : len3 n = 1 := by rw [len3_eq_sqrt, hn, Real.sqrt_one]
  have hball : ∀ x : Vec3, (∃ z ∈ ballSet3 x s.r, n ⬝ᵥ (z - x0) ≤ 0) ↔ n ⬝ᵥ (x - x0) - s.r ≤ 0 := by
    intro x
    constructor
    · rintro ⟨z, hz, h⟩
      rw [mem_ballSet3 hr, len3_sub_comm] at hz
      have h1 := dot_le_len n (x - z)
      rw [hn1, one_mul] at h1
      have h2 : n ⬝ᵥ (x - x0) = n ⬝ᵥ (x - z) + n ⬝ᵥ (z - x0) := by rw [← dotProduct_add]; congr 1; abel
      linarith
    · intro h
      refine ⟨x - s.r • n, (mem_ballSet3 hr).mpr ?_, ?_⟩
      · rw [sub_sub_cancel_left, len3_neg, len3_smul, hn1, mul_one, abs_of_nonneg hr]
      · rw [sub_right_comm, dotProduct_sub, dotProduct_smul, hn, smul_eq_mul, mul_one]; exact h
  have hmem : ∀ i, i ∈ stapleHalfPlaneActiveSet cm R s x0 n ↔ i < 4 ∧ n ⬝ᵥ (R *ᵥ s.corner i + cm - x0) - s.r ≤ 0 := by
    intro i
    simp [stapleHalfPlaneActiveSet]
  refine ⟨fun i => by rw [hmem, hball], ?_⟩
  rw [List.eq_nil_iff_forall_not_mem]
  constructor
  · intro h z hz
    obtain ⟨e, he, x, hx, hzx⟩ := staple_mem.mp hz
    by_contra hcon
    have h1 := (hball x).mp ⟨z, hzx, not_lt.mp hcon⟩
    obtain ⟨t, ht0, ht1, rfl⟩ := mem_segment_iff.mp hx
    have ha : ¬(n ⬝ᵥ (R *ᵥ s.corner e + cm - x0) - s.r ≤ 0) := fun hc => h e ((hmem e).mpr ⟨by omega, hc⟩)
    have hb : ¬(n ⬝ᵥ (R *ᵥ s.corner (e + 1) + cm - x0) - s.r ≤ 0) := fun hc => h (e + 1) ((hmem (e + 1)).mpr ⟨by omega, hc⟩)
    generalize R *ᵥ s.corner e + cm = p at *
    generalize R *ᵥ s.corner (e + 1) + cm = q at *
    have h2 : n ⬝ᵥ (p + t • (q - p) - x0) - s.r = (1 - t) * (n ⬝ᵥ (p - x0) - s.r) + t * (n ⬝ᵥ (q - x0) - s.r) := by
      simp only [dotProduct_sub, dotProduct_add, dotProduct_smul, smul_eq_mul]; ring
    push Not at ha hb
    rw [h2] at h1
    rcases ht1.eq_or_lt with rfl | h3
    · linarith
    · have := mul_pos (sub_pos.mpr h3) ha
      have := mul_nonneg ht0 hb.le
      linarith
  · intro h i hi
    obtain ⟨hi4, hc⟩ := (hmem i).mp hi
    obtain ⟨z, hz, hzn⟩ := (hball _).mpr hc
    refine absurd (h z (staple_mem.mpr ?_)) (not_lt.mpr hzn)
    rcases Nat.lt_or_ge i 3 with h3 | h3
    · exact ⟨i, h3, _, left_mem_segment _ _ _, hz⟩
    · obtain rfl : i = 3 := by omega
      exact ⟨2, by norm_num, _, right_mem_segment _ _ _, hz⟩

/-- A staple with a leg in the half space -/
example : stapleHalfPlaneActiveSet 0 1 (Staple.make 3 2 1) 0 ![1, 0, 0] = [0, 1] := by
  simp [stapleHalfPlaneActiveSet, List.range_succ, Staple.corner, Staple.corners, Staple.make, List.filter_cons]
  norm_num

/-- **C74, a box and a ball.** Nothing is reported exactly if they have no point in common. When something is reported, it is one point, the point of the box that is
closest to the centre of the ball, with the unit normal that points from the centre of the ball to it. The program ends exactly if they have a point in common and the
centre of the ball is in the box, or at most the square root of 1e-9 from it. -/
theorem C74_box_ball (xb : Vec3) (Rb : Mat3) (wb xs : Vec3) (rs : ℝ) (hR : Rb.transpose * Rb = 1) (hw : ∀ i, 0 ≤ wb i) (hr : 0 ≤ rs) :
    (boxSphereActiveSet xb Rb wb xs rs = .ok [] ↔ boxSet3 xb Rb wb ∩ ballSet3 xs rs = ∅) ∧
    (∀ l, boxSphereActiveSet xb Rb wb xs rs = .ok l → l ≠ [] → ∃ (p n : Vec3) (d : ℝ), l = [(p, n)] ∧ p ∈ boxSet3 xb Rb wb ∧ p ∈ ballSet3 xs rs ∧
      (∀ y ∈ boxSet3 xb Rb wb, (p - xs) ⬝ᵥ (p - xs) ≤ (y - xs) ⬝ᵥ (y - xs)) ∧ n ⬝ᵥ n = 1 ∧ 0 < d ∧ p = xs + d • n) ∧
    (boxSphereActiveSet xb Rb wb xs rs = .exit ↔ (boxSet3 xb Rb wb ∩ ballSet3 xs rs).Nonempty ∧ ∃ y ∈ boxSet3 xb Rb wb, (y - xs) ⬝ᵥ (y - xs) ≤ 1 / 10 ^ 9) := by
  have hsq : ∀ v : Vec3, squaredNorm3 v = v ⬝ᵥ v := fun v => by simp [squaredNorm3, dotProduct, Fin.sum_univ_three]
  have hmem := closestPointToBox_mem xb Rb hw xs
  have hle : ∀ y ∈ boxSet3 xb Rb wb, _ := fun y hy => closestPointToBox_le xb hR xs hy
  unfold boxSphereActiveSet
  dsimp only
  generalize closestPointToBox xb Rb wb xs = p at *
  simp only [hsq] at hle ⊢
  have hball : ∀ y : Vec3, y ∈ ballSet3 xs rs ↔ (y - xs) ⬝ᵥ (y - xs) ≤ rs * rs := by
    intro y
    rw [mem_ballSet3 hr, ← len3_sq, ← sq, pow_le_pow_iff_left₀ (len3_nonneg _) hr two_ne_zero]
  have hshare : (boxSet3 xb Rb wb ∩ ballSet3 xs rs).Nonempty ↔ (p - xs) ⬝ᵥ (p - xs) ≤ rs * rs :=
    ⟨fun ⟨y, hy, hy'⟩ => (hle y hy).trans ((hball y).mp hy'), fun h => ⟨p, hmem, (hball p).mpr h⟩⟩
  have hnear : (∃ y ∈ boxSet3 xb Rb wb, (y - xs) ⬝ᵥ (y - xs) ≤ 1 / 10 ^ 9) ↔ (p - xs) ⬝ᵥ (p - xs) ≤ 1 / 1000000000 := by
    constructor
    · rintro ⟨y, hy, h⟩
      refine (hle y hy).trans (h.trans (by norm_num))
    · exact fun h => ⟨p, hmem, h.trans (by norm_num)⟩
  rw [← Set.not_nonempty_iff_eq_empty, hshare, hnear]
  split_ifs with h1 h2
  · refine ⟨⟨fun _ => not_le.mpr h1, fun _ => rfl⟩, fun l hl hne => ?_, ?_⟩
    · cases hl; exact absurd rfl hne
    · constructor
      · intro h; cases h
      · rintro ⟨h, -⟩; exact absurd h1 (not_lt.mpr h)
  · refine ⟨⟨fun h => (by cases h), fun h => absurd (not_lt.mp h1) h⟩, fun l hl => (by cases hl), ?_⟩
    exact ⟨fun _ => ⟨not_lt.mp h1, h2⟩, fun _ => rfl⟩
  · have hp0 : 0 < (p - xs) ⬝ᵥ (p - xs) := lt_trans (by norm_num) (not_le.mp h2)
    refine ⟨⟨fun h => (by cases h), fun h => absurd (not_lt.mp h1) h⟩, fun l hl _ => ?_, ⟨fun h => (by cases h), fun h => absurd h.2 h2⟩⟩
    cases hl
    have hs := Real.sqrt_pos.mpr hp0
    refine ⟨p, _, Real.sqrt ((p - xs) ⬝ᵥ (p - xs)), rfl, hmem, (hball p).mpr (not_lt.mp h1), hle, ?_, hs, ?_⟩
    · rw [smul_dotProduct, dotProduct_smul, smul_eq_mul, smul_eq_mul]
      have := Real.mul_self_sqrt hp0.le
      field_simp
      rw [sq, this]
    · rw [smul_smul, mul_one_div_cancel hs.ne', one_smul, add_sub_cancel]

/-- A cube of half width one and a ball of radius one, half a unit apart from touching deeper -/
example : ∃ l, boxSphereActiveSet 0 1 ![1, 1, 1] ![3 / 2, 0, 0] 1 = .ok l ∧ l ≠ [] := by
  refine ⟨_, ?_, List.cons_ne_nil (![1, 0, 0], ![-1, 0, 0]) []⟩
  have hc : closestPointToBox 0 1 ![1, 1, 1] ![3 / 2, 0, 0] = ![1, 0, 0] := by
    rw [closestPointToBox_eq]
    funext i
    fin_cases i <;> norm_num [clampScalar, Mat3.column, dotProduct, Fin.sum_univ_three, Matrix.one_apply]
  unfold boxSphereActiveSet
  rw [hc]
  dsimp only
  have hd : squaredNorm3 (![1, 0, 0] - ![3 / 2, 0, 0]) = (1 / 2) ^ 2 := by simp [squaredNorm3]; norm_num
  rw [hd, Real.sqrt_sq (by norm_num), if_neg (by norm_num), if_neg (by norm_num)]
  congr 3
  funext i
  fin_cases i <;> simp <;> norm_num

end Scisim
