import Mathlib.Data.List.Count
import Mathlib.Analysis.Convex.Function
import Verif.Lemmas.RigidContacts3D
import Verif.Lemmas.RigidContactLists2D
import Verif.Props.Geometry3D
import Verif.Props.Frames
import Verif.Props.BoxBox3D
import Verif.Props.Segments3D
/-!
# The contact list of the 3D rigid body simulation: helper lemmas
-/

namespace Scisim

open Matrix

namespace Step3

variable {axis : Vec3 → Vec3 → Vec3} {s : Step3} {portals : List Portal3}

/-! ## The boxes -/

theorem endBoxes_get (i : Nat) : s.endBoxes[i]? = (s.bodies[i]?).map fun b => toBox3 (b.geometry.aabb (s.q1.x i) (s.q1.R i)) := by
  unfold endBoxes
  rw [List.getElem?_map, List.getElem?_zipIdx]
  cases s.bodies[i]? <;> simp

theorem overlap_boxesMeet {i j : Nat} {a b : SceneBody3} (h : BoxesMeet3 s.q1 i j a b) :
    Overlap (toBox3 (a.geometry.aabb (s.q1.x i) (s.q1.R i))) (toBox3 (b.geometry.aabb (s.q1.x j) (s.q1.R j))) := by
  obtain ⟨A, B, z, hA, hB, hz⟩ := h
  rw [hA, hB]
  exact ⟨z, fun t => ⟨(hz t).1, (hz t).2.1⟩, fun t => ⟨(hz t).2.2.1, (hz t).2.2.2⟩⟩

theorem boxesMeet_symm {i j : Nat} {a b : SceneBody3} (h : BoxesMeet3 s.q1 i j a b) : BoxesMeet3 s.q1 j i b a := by
  obtain ⟨A, B, z, hA, hB, hz⟩ := h
  exact ⟨B, A, z, hB, hA, fun t => ⟨(hz t).2.2.1, (hz t).2.2.2, (hz t).1, (hz t).2.1⟩⟩

/-- A body whose box is valid has a box. -/
theorem aabb_some {b : SceneBody3} {i : Nat} (h : (toBox3 (b.geometry.aabb (s.q1.x i) (s.q1.R i))).Valid) :
    ∃ A, b.geometry.aabb (s.q1.x i) (s.q1.R i) = some A := by
  cases hb : b.geometry.aabb (s.q1.x i) (s.q1.R i) with
  | some A => exact ⟨A, rfl⟩
  | none =>
    rw [hb] at h
    exact absurd (h 0) (lt_irrefl _)

theorem boxesMeet_of_overlap {i j : Nat} {a b : SceneBody3} (ha : (toBox3 (a.geometry.aabb (s.q1.x i) (s.q1.R i))).Valid)
    (hb : (toBox3 (b.geometry.aabb (s.q1.x j) (s.q1.R j))).Valid)
    (h : Overlap (toBox3 (a.geometry.aabb (s.q1.x i) (s.q1.R i))) (toBox3 (b.geometry.aabb (s.q1.x j) (s.q1.R j)))) : BoxesMeet3 s.q1 i j a b := by
  obtain ⟨A, hA⟩ := aabb_some ha
  obtain ⟨B, hB⟩ := aabb_some hb
  rw [hA, hB] at h
  obtain ⟨z, h1, h2⟩ := h
  exact ⟨A, B, z, hA, hB, fun t => ⟨(h1 t).1, (h1 t).2, (h2 t).1, (h2 t).2⟩⟩

theorem spheres_boxesMeet {i j : Nat} {a b : SceneBody3} {ra rb : ℝ} (hga : a.geometry = .sphere ra) (hgb : b.geometry = .sphere rb) (hra : 0 < ra)
    (hrb : 0 < rb) {z : Vec3} (h1 : z ∈ a.pointsAt s.q1 i) (h2 : z ∈ b.pointsAt s.q1 j) : BoxesMeet3 s.q1 i j a b := by
  obtain ⟨A, hA, hA1, _⟩ := C44_sphere ra hra.le (s.q1.x i) (s.q1.R i)
  obtain ⟨B, hB, hB1, _⟩ := C44_sphere rb hrb.le (s.q1.x j) (s.q1.R j)
  unfold SceneBody3.pointsAt PosedBody3D.points at h1 h2
  rw [hga] at h1
  rw [hgb] at h2
  exact ⟨A, B, z, by rw [hga]; exact hA, by rw [hgb]; exact hB, fun t => ⟨(hA1 z h1 t).1, (hA1 z h1 t).2, (hB1 z h2 t).1, (hB1 z h2 t).2⟩⟩

theorem boxes_boxesMeet {i j : Nat} {a b : SceneBody3} {wa wb : Vec3} (hga : a.geometry = .box wa) (hgb : b.geometry = .box wb) (hwa : ∀ t, 0 ≤ wa t)
    (hwb : ∀ t, 0 ≤ wb t) {z : Vec3} (h1 : z ∈ a.pointsAt s.q1 i) (h2 : z ∈ b.pointsAt s.q1 j) : BoxesMeet3 s.q1 i j a b := by
  obtain ⟨A, hA, hA1, _⟩ := C44_box3 wa hwa (s.q1.x i) (s.q1.R i)
  obtain ⟨B, hB, hB1, _⟩ := C44_box3 wb hwb (s.q1.x j) (s.q1.R j)
  unfold SceneBody3.pointsAt PosedBody3D.points at h1 h2
  rw [hga] at h1
  rw [hgb] at h2
  exact ⟨A, B, z, by rw [hga]; exact hA, by rw [hgb]; exact hB, fun t => ⟨(hA1 z h1 t).1, (hA1 z h1 t).2, (hB1 z h2 t).1, (hB1 z h2 t).2⟩⟩

theorem boxInterior3_subset (p : Vec3) (R : Mat3) (w : Vec3) : boxInterior3 p R w ⊆ boxSet3 p R w := by
  rintro z ⟨a, ha, rfl⟩
  exact ⟨a, fun i => (ha i).le, rfl⟩

/-! ## The narrow phase -/

theorem squaredNorm3_eq (v : Vec3) : squaredNorm3 v = v 0 ^ 2 + v 1 ^ 2 + v 2 ^ 2 := by
  simp [squaredNorm3, dot3, pow_two]

/-- Two balls meet if their centres are no further apart than the sum of the radii. -/
theorem balls_meet {x y : Vec3} {r t : ℝ} (hr : 0 < r) (ht : 0 < t) :
    (∃ z, z ∈ ballSet3 x r ∧ z ∈ ballSet3 y t) ↔ sphereSphereIsActive x y r t = true := by
  unfold sphereSphereIsActive
  rw [decide_eq_true_eq, squaredNorm3_eq]
  simp only [Pi.sub_apply]
  constructor
  · rintro ⟨z, h1, h2⟩
    simp only [ballSet3, Set.mem_ofPred_eq] at h1 h2
    set a0 := z 0 - x 0
    set a1 := z 1 - x 1
    set a2 := z 2 - x 2
    set b0 := z 0 - y 0
    set b1 := z 1 - y 1
    set b2 := z 2 - y 2
    have e0 : x 0 - y 0 = b0 - a0 := by simp [a0, b0]
    have e1 : x 1 - y 1 = b1 - a1 := by simp [a1, b1]
    have e2 : x 2 - y 2 = b2 - a2 := by simp [a2, b2]
    rw [e0, e1, e2]
    have hcs : (a0 * b0 + a1 * b1 + a2 * b2) ^ 2 ≤ (r * t) ^ 2 := by
      have k : (a0 * b0 + a1 * b1 + a2 * b2) ^ 2 ≤ (a0 ^ 2 + a1 ^ 2 + a2 ^ 2) * (b0 ^ 2 + b1 ^ 2 + b2 ^ 2) := by
        nlinarith [sq_nonneg (a0 * b1 - a1 * b0), sq_nonneg (a0 * b2 - a2 * b0), sq_nonneg (a1 * b2 - a2 * b1)]
      refine k.trans ?_
      rw [mul_pow]
      exact mul_le_mul h1 h2 (by positivity) (by positivity)
    have := (abs_le_of_sq_le_sq' hcs (by positivity)).1
    nlinarith
  · intro h
    have hp : 0 < r + t := by positivity
    refine ⟨x + (r / (r + t)) • (y - x), ?_, ?_⟩
    · simp only [ballSet3, Set.mem_ofPred_eq, Pi.add_apply, Pi.smul_apply, Pi.sub_apply, smul_eq_mul]
      have e : (x 0 + r / (r + t) * (y 0 - x 0) - x 0) ^ 2 + (x 1 + r / (r + t) * (y 1 - x 1) - x 1) ^ 2 + (x 2 + r / (r + t) * (y 2 - x 2) - x 2) ^ 2 =
          (r / (r + t)) ^ 2 * ((x 0 - y 0) ^ 2 + (x 1 - y 1) ^ 2 + (x 2 - y 2) ^ 2) := by ring
      rw [e]
      calc _ ≤ (r / (r + t)) ^ 2 * ((r + t) * (r + t)) := mul_le_mul_of_nonneg_left h (by positivity)
        _ = r ^ 2 := by field_simp
    · simp only [ballSet3, Set.mem_ofPred_eq, Pi.add_apply, Pi.smul_apply, Pi.sub_apply, smul_eq_mul]
      have e : (x 0 + r / (r + t) * (y 0 - x 0) - y 0) ^ 2 + (x 1 + r / (r + t) * (y 1 - x 1) - y 1) ^ 2 + (x 2 + r / (r + t) * (y 2 - x 2) - y 2) ^ 2 =
          (t / (r + t)) ^ 2 * ((x 0 - y 0) ^ 2 + (x 1 - y 1) ^ 2 + (x 2 - y 2) ^ 2) := by
        have : r / (r + t) = 1 - t / (r + t) := by field_simp; ring
        rw [this]
        ring
      rw [e]
      calc _ ≤ (t / (r + t)) ^ 2 * ((r + t) * (r + t)) := mul_le_mul_of_nonneg_left h (by positivity)
        _ = t ^ 2 := by field_simp

theorem samplesInside_eq {i j : Nat} (a b : SceneBody3) (hR : s.q1.R j * (s.q1.R j).transpose = 1) (z n : Vec3) :
    (z, n) ∈ samplesInside (s.q1.x i) (s.q1.R i) a.mesh (s.q1.x j) (s.q1.R j) b.mesh ↔ SampleInside3 s.q1 i j a b z n := by
  unfold samplesInside SampleInside3
  rw [List.mem_filterMap]
  have hx : ∀ y : Vec3, ((s.q1.R j).transpose * s.q1.R i) *ᵥ y + (s.q1.R j).transpose *ᵥ (s.q1.x i - s.q1.x j) =
      (s.q1.R j).transpose *ᵥ (s.q1.x i + s.q1.R i *ᵥ y - s.q1.x j) := by
    intro y
    rw [← Matrix.mulVec_mulVec, ← Matrix.mulVec_add]
    congr 1
    abel
  have hback : ∀ y : Vec3, s.q1.R j *ᵥ (s.q1.R j).transpose *ᵥ (s.q1.x i + s.q1.R i *ᵥ y - s.q1.x j) + s.q1.x j = s.q1.x i + s.q1.R i *ᵥ y := by
    intro y
    rw [Matrix.mulVec_mulVec, hR, Matrix.one_mulVec]
    abel
  constructor
  · rintro ⟨y, hy, h⟩
    dsimp only at h
    rw [hx] at h
    obtain ⟨m, hm, h⟩ := Option.map_eq_some_iff.mp h
    rw [hback] at h
    obtain ⟨h1, h2⟩ := Prod.mk.inj h
    subst h1
    exact ⟨y, hy, rfl, m, hm, h2.symm⟩
  · rintro ⟨y, hy, rfl, m, hm, rfl⟩
    refine ⟨y, hy, ?_⟩
    dsimp only
    rw [hx, hm, Option.map_some, hback]

/-- A sample is inside, whether or not the rotations are orthogonal -/
theorem samplesInside_nonempty {i j : Nat} (a b : SceneBody3) :
    samplesInside (s.q1.x i) (s.q1.R i) a.mesh (s.q1.x j) (s.q1.R j) b.mesh ≠ [] ↔ ∃ z n, SampleInside3 s.q1 i j a b z n := by
  unfold samplesInside SampleInside3
  rw [ne_eq, List.filterMap_eq_nil_iff]
  push Not
  have hx : ∀ y : Vec3, ((s.q1.R j).transpose * s.q1.R i) *ᵥ y + (s.q1.R j).transpose *ᵥ (s.q1.x i - s.q1.x j) =
      (s.q1.R j).transpose *ᵥ (s.q1.x i + s.q1.R i *ᵥ y - s.q1.x j) := by
    intro y
    rw [← Matrix.mulVec_mulVec, ← Matrix.mulVec_add]
    congr 1
    abel
  constructor
  · rintro ⟨y, hy, h⟩
    dsimp only at h
    rw [hx] at h
    obtain ⟨e, he⟩ := Option.ne_none_iff_exists'.mp h
    obtain ⟨m, hm, _⟩ := Option.map_eq_some_iff.mp he
    exact ⟨_, _, y, hy, rfl, m, hm, rfl⟩
  · rintro ⟨z, n, y, hy, rfl, m, hm, rfl⟩
    refine ⟨y, hy, ?_⟩
    dsimp only
    rw [hx, hm]
    simp

/-- What the narrow phase does for a pair of which the first body is not scripted -/
theorem ordered_spec3 {i j : Nat} {a b : SceneBody3} (hsa : a.Sound) (hsb : b.Sound) (hk : Supported3 s i j a b)
    (hbox : BoxesMeet3 s.q1 i j a b) :
    ∃ l, s.dispatchOrdered i j a b = .ok l ∧ (∀ c ∈ l, c.pair = some (min i j, max i j) ∧ c.planePair = none ∧ c.cylinderPair = none) ∧
      (l ≠ [] → Touch3 s i j a b) ∧ (Collide3 s i j a b → l ≠ []) ∧ ((∃ r, a.geometry = .sphere r) → l.length ≤ 1) := by
  obtain ⟨ga, ma, fa⟩ := a
  obtain ⟨gb, mb, fb⟩ := b
  cases ga with
  | sphere ra =>
    cases gb with
    | sphere rb =>
      refine ⟨_, rfl, ?_⟩
      have hm : Collide3 s i j ⟨.sphere ra, ma, fa⟩ ⟨.sphere rb, mb, fb⟩ ↔ _ := balls_meet (x := s.q1.x i) (y := s.q1.x j) (show 0 < ra from hsa) (show 0 < rb from hsb)
      have ht : Touch3 s i j ⟨.sphere ra, ma, fa⟩ ⟨.sphere rb, mb, fb⟩ ↔ Collide3 s i j ⟨.sphere ra, ma, fa⟩ ⟨.sphere rb, mb, fb⟩ := Iff.rfl
      rw [ht, hm]
      unfold sphereSphereNarrowPhaseCollision
      dsimp only
      by_cases hact : sphereSphereIsActive (s.q1.x i) (s.q1.x j) ra rb = true
      · rw [if_pos hact]
        cases fb <;> simp [hact, Contact3.pair, Contact3.planePair, Contact3.cylinderPair]
      · rw [if_neg hact]
        simp [hact]
    | _ => exact hk.elim
  | box wa =>
    cases gb with
    | box wb =>
      obtain ⟨hw0, hw1, hR0, hR1⟩ := hk
      have hl : s.boxBoxNarrowPhaseCollision i j ⟨.box wb, mb, fb⟩ wa wb ≠ [] ↔
          (boxBoxIsActive3 (s.q1.x i) (s.q1.R i) wa (s.q1.x j) (s.q1.R j) wb 0).2 ≠ [] := by
        unfold boxBoxNarrowPhaseCollision
        dsimp only
        split <;> simp
      refine ⟨_, rfl, ?_, ?_, ?_, fun ⟨r, hr⟩ => (by cases hr)⟩
      · intro c hc
        unfold boxBoxNarrowPhaseCollision at hc
        dsimp only at hc
        split at hc <;> obtain ⟨p, _, rfl⟩ := List.mem_map.mp hc <;> exact ⟨rfl, rfl, rfl⟩
      · intro h
        obtain ⟨z, h1, h2⟩ := C73_sound _ _ _ _ _ _ _ hR0 hR1 hw0 hw1 (hl.mp h)
        exact ⟨z, h1, h2⟩
      · rintro ⟨z, h1, h2⟩
        exact hl.mpr (C73_complete _ _ _ _ _ _ _ hR0 hR1 hw0 hw1 ⟨z, h1, h2⟩)
    | _ => exact hk.elim
  | staple sa =>
    cases gb with
    | staple sb =>
      obtain ⟨hr0, hr1, hno⟩ := hk
      refine ⟨[], if_neg fun h => ?_, by simp, fun h => absurd rfl h, fun h => h.elim, by simp⟩
      obtain ⟨z, h1, h2⟩ := stapleStapleIsActive_share hr0 hr1 h
      exact hno z ⟨h1, h2⟩
    | _ => exact hk.elim
  | mesh va =>
    cases gb with
    | mesh vb =>
      have hl : s.meshMeshNarrowPhaseCollision i j ⟨.mesh vb, mb, fb⟩ ma mb ≠ [] ↔ Collide3 s i j ⟨.mesh va, ma, fa⟩ ⟨.mesh vb, mb, fb⟩ := by
        have h1 := samplesInside_nonempty (s := s) (i := i) (j := j) ⟨.mesh va, ma, fa⟩ ⟨.mesh vb, mb, fb⟩
        have h2 := samplesInside_nonempty (s := s) (i := j) (j := i) ⟨.mesh vb, mb, fb⟩ ⟨.mesh va, ma, fa⟩
        have : Collide3 s i j ⟨.mesh va, ma, fa⟩ ⟨.mesh vb, mb, fb⟩ ↔ ∃ z n, SampleInside3 s.q1 i j ⟨.mesh va, ma, fa⟩ ⟨.mesh vb, mb, fb⟩ z n ∨
            SampleInside3 s.q1 j i ⟨.mesh vb, mb, fb⟩ ⟨.mesh va, ma, fa⟩ z n :=
          ⟨fun h => h.2, fun h => ⟨hbox, h⟩⟩
        rw [this]
        simp only [exists_or]
        rw [← h1, ← h2]
        unfold meshMeshNarrowPhaseCollision meshMeshActiveSet
        dsimp only
        split <;> simp [imp_iff_not_or]
      refine ⟨_, rfl, ?_, hl.mp, hl.mpr, fun ⟨r, hr⟩ => (by cases hr)⟩
      · intro c hc
        unfold meshMeshNarrowPhaseCollision at hc
        dsimp only at hc
        split at hc <;> obtain ⟨p, _, rfl⟩ := List.mem_map.mp hc <;> exact ⟨rfl, rfl, rfl⟩
    | _ => exact hk.elim

theorem collide3_boxesMeet {i j : Nat} {a b : SceneBody3} (hsa : a.Sound) (hsb : b.Sound) (h : Collide3 s i j a b) : BoxesMeet3 s.q1 i j a b := by
  obtain ⟨ga, ma, fa⟩ := a
  obtain ⟨gb, mb, fb⟩ := b
  cases ga with
  | sphere ra =>
    cases gb with
    | sphere rb =>
      obtain ⟨z, h1, h2⟩ := h
      exact spheres_boxesMeet rfl rfl hsa hsb h1 h2
    | _ => exact h.elim
  | box wa =>
    cases gb with
    | box wb =>
      obtain ⟨z, h1, h2⟩ := h
      exact boxes_boxesMeet rfl rfl hsa hsb (boxInterior3_subset _ _ _ h1) (boxInterior3_subset _ _ _ h2)
    | _ => exact h.elim
  | staple sa => cases gb <;> exact h.elim
  | mesh va =>
    cases gb with
    | mesh vb => exact h.1
    | _ => exact h.elim

theorem collide3_symm {i j : Nat} {a b : SceneBody3} (h : Collide3 s i j a b) : Collide3 s j i b a := by
  obtain ⟨ga, ma, fa⟩ := a
  obtain ⟨gb, mb, fb⟩ := b
  cases ga <;> cases gb <;> first | exact h.elim | skip
  · obtain ⟨z, h1, h2⟩ := h
    exact ⟨z, h2, h1⟩
  · obtain ⟨z, h1, h2⟩ := h
    exact ⟨z, h2, h1⟩
  · obtain ⟨h1, z, n, h2⟩ := h
    exact ⟨boxesMeet_symm h1, z, n, h2.symm⟩

theorem touch3_symm {i j : Nat} {a b : SceneBody3} (h : Touch3 s i j a b) : Touch3 s j i b a := by
  obtain ⟨ga, ma, fa⟩ := a
  obtain ⟨gb, mb, fb⟩ := b
  cases ga <;> cases gb
  case box.box => obtain ⟨z, h1, h2⟩ := h; exact ⟨z, h2, h1⟩
  case sphere.sphere => obtain ⟨z, h1, h2⟩ := h; exact ⟨z, h2, h1⟩
  case mesh.mesh => obtain ⟨h1, z, n, h2⟩ := h; exact ⟨boxesMeet_symm h1, z, n, h2.symm⟩
  all_goals exact (show False from h).elim

theorem supported3_symm {i j : Nat} {a b : SceneBody3} (h : Supported3 s i j a b) : Supported3 s j i b a := by
  obtain ⟨ga, ma, fa⟩ := a
  obtain ⟨gb, mb, fb⟩ := b
  cases ga <;> cases gb <;> first | exact h.elim | trivial | skip
  · exact ⟨h.2.1, h.1, h.2.2.2, h.2.2.1⟩
  · exact ⟨h.2.1, h.1, fun z hz => h.2.2 z hz.symm⟩

theorem sameKind_of_supported {i j : Nat} {a b : SceneBody3} (h : Supported3 s i j a b) : SameKind3 a b := by
  obtain ⟨ga, ma, fa⟩ := a
  obtain ⟨gb, mb, fb⟩ := b
  cases ga <;> cases gb <;> first | exact h.elim | trivial

theorem sameKind_symm {a b : SceneBody3} (h : SameKind3 a b) : SameKind3 b a := by
  obtain ⟨ga, ma, fa⟩ := a
  obtain ⟨gb, mb, fb⟩ := b
  cases ga <;> cases gb <;> exact h

theorem ordered_exit3 {i j : Nat} {a b : SceneBody3} (h : ¬SameKind3 a b) : s.dispatchOrdered i j a b = .exit := by
  obtain ⟨ga, ma, fa⟩ := a
  obtain ⟨gb, mb, fb⟩ := b
  cases ga <;> cases gb <;> first | exact absurd trivial h | rfl

theorem dispatch_spec3 {i j : Nat} {a b : SceneBody3} (hij : i < j) (ha : s.bodies[i]? = some a) (hb : s.bodies[j]? = some b) (hsa : a.Sound)
    (hsb : b.Sound) (hk : ¬(a.fixed = true ∧ b.fixed = true) → Supported3 s i j a b) (hbox : BoxesMeet3 s.q1 i j a b) :
    ∃ l, s.dispatchNarrowPhaseCollision (i, j) = .ok l ∧ (∀ c ∈ l, c.pair = some (i, j) ∧ c.planePair = none ∧ c.cylinderPair = none) ∧
      (l ≠ [] → ¬(a.fixed = true ∧ b.fixed = true) ∧ Touch3 s i j a b) ∧ (¬(a.fixed = true ∧ b.fixed = true) → Collide3 s i j a b → l ≠ []) ∧
      ((∃ r, a.geometry = .sphere r) → l.length ≤ 1) := by
  unfold dispatchNarrowPhaseCollision
  dsimp only
  rw [ha, hb]
  dsimp only
  have hmin : min i j = i := min_eq_left hij.le
  have hmax : max i j = j := max_eq_right hij.le
  by_cases hfa : a.fixed = true
  · by_cases hfb : b.fixed = true
    · rw [if_pos (by simp [hfa, hfb])]
      exact ⟨[], rfl, by simp, fun h => absurd rfl h, fun h => absurd ⟨hfa, hfb⟩ h, by simp⟩
    · have hk := hk fun h => hfb h.2
      rw [if_neg (by simp [hfb]), if_pos hfa]
      obtain ⟨l, h1, h2, h3, h3', h4⟩ := ordered_spec3 (s := s) (i := j) (j := i) hsb hsa (supported3_symm hk) (boxesMeet_symm hbox)
      rw [min_comm, max_comm, hmin, hmax] at h2
      refine ⟨l, h1, h2, fun h => ⟨fun h => hfb h.2, touch3_symm (h3 h)⟩, fun _ h => h3' (collide3_symm h), fun ⟨r, hr⟩ => h4 ?_⟩
      · have hk := sameKind_of_supported hk
        unfold SameKind3 at hk
        rw [hr] at hk
        cases hgb : b.geometry with
        | sphere r' => exact ⟨r', rfl⟩
        | _ => rw [hgb] at hk; exact hk.elim
  · have hk := hk fun h => hfa h.1
    rw [if_neg (by simp [hfa]), if_neg hfa]
    obtain ⟨l, h1, h2, h3, h3', h4⟩ := ordered_spec3 (s := s) (i := i) (j := j) hsa hsb hk hbox
    rw [hmin, hmax] at h2
    exact ⟨l, h1, h2, fun h => ⟨fun h => hfa h.1, h3 h⟩, fun _ h => h3' h, h4⟩

theorem dispatch_exit3 {i j : Nat} {a b : SceneBody3} (ha : s.bodies[i]? = some a) (hb : s.bodies[j]? = some b) (hf : ¬(a.fixed = true ∧ b.fixed = true))
    (hk : ¬SameKind3 a b) : s.dispatchNarrowPhaseCollision (i, j) = .exit := by
  unfold dispatchNarrowPhaseCollision
  dsimp only
  rw [ha, hb]
  dsimp only
  rw [if_neg (by simpa using hf)]
  split
  · exact ordered_exit3 fun h => hk (sameKind_symm h)
  · exact ordered_exit3 hk

theorem ordered_ok_or_exit {i j : Nat} {a b : SceneBody3} : (∃ l, s.dispatchOrdered i j a b = .ok l) ∨ s.dispatchOrdered i j a b = .exit := by
  unfold dispatchOrdered
  split
  · exact Or.inl ⟨_, rfl⟩
  · exact Or.inl ⟨_, rfl⟩
  · unfold stapleStapleNarrowPhaseCollision
    split
    · exact Or.inr rfl
    · exact Or.inl ⟨_, rfl⟩
  · exact Or.inl ⟨_, rfl⟩
  · exact Or.inr rfl

theorem dispatch_ok_or_exit {i j : Nat} {a b : SceneBody3} (ha : s.bodies[i]? = some a) (hb : s.bodies[j]? = some b) :
    (∃ l, s.dispatchNarrowPhaseCollision (i, j) = .ok l) ∨ s.dispatchNarrowPhaseCollision (i, j) = .exit := by
  unfold dispatchNarrowPhaseCollision
  dsimp only
  rw [ha, hb]
  dsimp only
  split
  · exact Or.inl ⟨_, rfl⟩
  · split <;> exact ordered_ok_or_exit

/-- Two staples that are found to touch -/
theorem dispatch_staples {i j : Nat} {a b : SceneBody3} {sa sb : Staple} (ha : s.bodies[i]? = some a) (hb : s.bodies[j]? = some b)
    (hf : ¬(a.fixed = true ∧ b.fixed = true)) (hga : a.geometry = .staple sa) (hgb : b.geometry = .staple sb)
    (h1 : stapleStapleIsActive (s.q1.x i) (s.q1.R i) sa (s.q1.x j) (s.q1.R j) sb = true)
    (h2 : stapleStapleIsActive (s.q1.x j) (s.q1.R j) sb (s.q1.x i) (s.q1.R i) sa = true) : s.dispatchNarrowPhaseCollision (i, j) = .exit := by
  unfold dispatchNarrowPhaseCollision
  dsimp only
  rw [ha, hb]
  dsimp only
  rw [if_neg (by simpa using hf)]
  split
  · simp only [dispatchOrdered, hga, hgb, stapleStapleNarrowPhaseCollision, h2]
    rfl
  · simp only [dispatchOrdered, hga, hgb, stapleStapleNarrowPhaseCollision, h1]
    rfl

/-! ## The loops -/

theorem classifyAll_direct : ∀ (pairs : List (Nat × Nat)) (acc : List Contact3 × List TeleportedCollision),
    (∀ p ∈ pairs, p.1 < s.bodies.length ∧ p.2 < s.bodies.length) →
    classifyAll axis s portals [] pairs acc = (Step2.collect (s.dispatchNarrowPhaseCollision) pairs).bind fun l => .ok (acc.1 ++ l, acc.2)
  | [], acc, _ => by simp [classifyAll, Step2.collect, Outcome.bind]
  | p :: ps, acc, h => by
    obtain ⟨h1, h2⟩ := h p (by simp)
    have hc : classify3 axis s portals [] p = (s.dispatchNarrowPhaseCollision p).bind fun cs => .ok (cs, none) := by
      unfold classify3
      dsimp only
      rw [show imageOf s.bodies.length [] p.1 = ⟨p.1, none⟩ from if_pos h1, show imageOf s.bodies.length [] p.2 = ⟨p.2, none⟩ from if_pos h2]
    unfold classifyAll Step2.collect
    rw [hc]
    cases hd : s.dispatchNarrowPhaseCollision p with
    | ok l =>
      simp only [Outcome.bind]
      rw [classifyAll_direct ps _ fun p' hp' => h p' (by simp [hp'])]
      cases Step2.collect (s.dispatchNarrowPhaseCollision) ps <;> simp [Outcome.bind]
    | _ => simp [Outcome.bind]

/-- Without portals, the contacts between bodies are collected over the overlapping boxes. -/
theorem bodyBody_direct {pairs : List (Nat × Nat)} (hp : getPotentialOverlaps s.endBoxes = .ok pairs)
    (hlt : ∀ p ∈ pairs, p.1 < s.bodies.length ∧ p.2 < s.bodies.length) :
    s.computeActiveSetBodyBodySpatialGrid axis [] = Step2.collect (s.dispatchNarrowPhaseCollision) pairs := by
  have htele : s.teleportedBodies axis [] = [] := rfl
  unfold computeActiveSetBodyBodySpatialGrid
  dsimp only
  rw [htele, List.map_nil, List.append_nil, hp]
  simp only [Outcome.bind]
  rw [List.map_nil, classifyAll_direct pairs _ hlt]
  cases Step2.collect (s.dispatchNarrowPhaseCollision) pairs <;> simp [Outcome.bind, Step2.collect]

/-! ## Planes and cylinders -/

theorem cauchy3 (a0 a1 a2 b0 b1 b2 : ℝ) : (a0 * b0 + a1 * b1 + a2 * b2) ^ 2 ≤ (a0 * a0 + a1 * a1 + a2 * a2) * (b0 ^ 2 + b1 ^ 2 + b2 ^ 2) := by
  nlinarith [sq_nonneg (a0 * b1 - a1 * b0), sq_nonneg (a1 * b2 - a2 * b1), sq_nonneg (a2 * b0 - a0 * b2)]

theorem ball_below {x n px : Vec3} {r : ℝ} (hr : 0 < r) (hn : inner3 n n = 1) :
    (∃ z ∈ ballSet3 x r, inner3 n (z - px) ≤ 0) ↔ n ⬝ᵥ (x - px) ≤ r := by
  rw [dot_inner]
  simp only [inner3, Pi.sub_apply] at hn ⊢
  constructor
  · rintro ⟨z, hz, h⟩
    simp only [ballSet3, Set.mem_ofPred_eq] at hz
    have hcs : (n 0 * (x 0 - z 0) + n 1 * (x 1 - z 1) + n 2 * (x 2 - z 2)) ^ 2 ≤ r ^ 2 := by
      have k : (n 0 * (x 0 - z 0) + n 1 * (x 1 - z 1) + n 2 * (x 2 - z 2)) ^ 2 ≤
          (n 0 * n 0 + n 1 * n 1 + n 2 * n 2) * ((z 0 - x 0) ^ 2 + (z 1 - x 1) ^ 2 + (z 2 - x 2) ^ 2) := by
        nlinarith [sq_nonneg (n 0 * (x 1 - z 1) - n 1 * (x 0 - z 0)), sq_nonneg (n 1 * (x 2 - z 2) - n 2 * (x 1 - z 1)),
          sq_nonneg (n 2 * (x 0 - z 0) - n 0 * (x 2 - z 2))]
      rw [hn, one_mul] at k
      exact k.trans hz
    have := (abs_le_of_sq_le_sq' hcs hr.le).2
    linarith
  · intro h
    refine ⟨x - r • n, ?_, ?_⟩
    · simp only [ballSet3, Set.mem_ofPred_eq, Pi.sub_apply, Pi.smul_apply, smul_eq_mul]
      apply le_of_eq
      linear_combination r ^ 2 * hn
    · simp only [Pi.sub_apply, Pi.smul_apply, smul_eq_mul]
      have : n 0 * (x 0 - r * n 0 - px 0) + n 1 * (x 1 - r * n 1 - px 1) + n 2 * (x 2 - r * n 2 - px 2) =
          n 0 * (x 0 - px 0) + n 1 * (x 1 - px 1) + n 2 * (x 2 - px 2) - r := by linear_combination -r * hn
      rw [this]
      linarith

theorem corner_abs (w : Vec3) (hw : ∀ i, 0 ≤ w i) (k : Nat) : ∀ i, |Contact3.boxCorner w k i| = w i := by
  have h : ∀ m : Nat, |2 * ((m % 2 : ℕ) : ℝ) - 1| = 1 := by
    intro m
    rcases Nat.mod_two_eq_zero_or_one m with h | h <;> rw [h] <;> norm_num
  refine fin3_cases ?_ ?_ ?_ <;> simp [Contact3.boxCorner, abs_mul, h, abs_of_nonneg (hw _)]

theorem corner_signs (w : Vec3) (a : Vec3) (ha : ∀ i, |a i| = w i) : ∃ k < 8, a = Contact3.boxCorner w k := by
  have hs : ∀ i, a i = w i ∨ a i = -w i := fun i => by
    rw [← ha i]
    rcases abs_choice (a i) with h | h <;> rw [h] <;> simp
  rcases hs 0 with h0 | h0 <;> rcases hs 1 with h1 | h1 <;> rcases hs 2 with h2 | h2
  · exact ⟨7, by norm_num, vec3_ext (by rw [h0]; simp [Contact3.boxCorner]; ring) (by rw [h1]; simp [Contact3.boxCorner]; ring)
      (by rw [h2]; simp [Contact3.boxCorner]; ring)⟩
  · exact ⟨3, by norm_num, vec3_ext (by rw [h0]; simp [Contact3.boxCorner]; ring) (by rw [h1]; simp [Contact3.boxCorner]; ring)
      (by rw [h2]; simp [Contact3.boxCorner])⟩
  · exact ⟨5, by norm_num, vec3_ext (by rw [h0]; simp [Contact3.boxCorner]; ring) (by rw [h1]; simp [Contact3.boxCorner])
      (by rw [h2]; simp [Contact3.boxCorner]; ring)⟩
  · exact ⟨1, by norm_num, vec3_ext (by rw [h0]; simp [Contact3.boxCorner]; ring) (by rw [h1]; simp [Contact3.boxCorner])
      (by rw [h2]; simp [Contact3.boxCorner])⟩
  · exact ⟨6, by norm_num, vec3_ext (by rw [h0]; simp [Contact3.boxCorner]) (by rw [h1]; simp [Contact3.boxCorner]; ring)
      (by rw [h2]; simp [Contact3.boxCorner]; ring)⟩
  · exact ⟨2, by norm_num, vec3_ext (by rw [h0]; simp [Contact3.boxCorner]) (by rw [h1]; simp [Contact3.boxCorner]; ring)
      (by rw [h2]; simp [Contact3.boxCorner])⟩
  · exact ⟨4, by norm_num, vec3_ext (by rw [h0]; simp [Contact3.boxCorner]) (by rw [h1]; simp [Contact3.boxCorner])
      (by rw [h2]; simp [Contact3.boxCorner]; ring)⟩
  · exact ⟨0, by norm_num, vec3_ext (by rw [h0]; simp [Contact3.boxCorner]) (by rw [h1]; simp [Contact3.boxCorner])
      (by rw [h2]; simp [Contact3.boxCorner])⟩

/-- If a linear function is not positive somewhere on a box, then it is so at a corner. -/
theorem box_below3 {cm n px : Vec3} {R : Mat3} {w : Vec3} (hw : ∀ i, 0 ≤ w i) :
    (∃ z ∈ boxSet3 cm R w, inner3 n (z - px) ≤ 0) ↔ ∃ a : Vec3, (∀ i, |a i| = w i) ∧ inner3 n (cm + R *ᵥ a - px) ≤ 0 := by
  have hlin : ∀ a : Vec3, inner3 n (cm + R *ᵥ a - px) = inner3 n (cm - px) + a 0 * (n 0 * R 0 0 + n 1 * R 1 0 + n 2 * R 2 0) +
      a 1 * (n 0 * R 0 1 + n 1 * R 1 1 + n 2 * R 2 1) + a 2 * (n 0 * R 0 2 + n 1 * R 1 2 + n 2 * R 2 2) := by
    intro a
    simp only [inner3, Pi.sub_apply, Pi.add_apply, mulVec3]
    ring
  constructor
  · rintro ⟨z, ⟨a, ha, rfl⟩, hz⟩
    rw [hlin] at hz
    set u0 := n 0 * R 0 0 + n 1 * R 1 0 + n 2 * R 2 0
    set u1 := n 0 * R 0 1 + n 1 * R 1 1 + n 2 * R 2 1
    set u2 := n 0 * R 0 2 + n 1 * R 1 2 + n 2 * R 2 2
    have hpick : ∀ (i : Fin 3) (u : ℝ), ∃ b : ℝ, |b| = w i ∧ b * u ≤ a i * u := by
      intro i u
      obtain ⟨h1, h2⟩ := abs_le.mp (ha i)
      rcases le_total 0 u with hu | hu
      · exact ⟨-w i, by rw [abs_neg, abs_of_nonneg (hw i)], mul_le_mul_of_nonneg_right h1 hu⟩
      · exact ⟨w i, abs_of_nonneg (hw i), mul_le_mul_of_nonpos_right h2 hu⟩
    obtain ⟨b0, k0, l0⟩ := hpick 0 u0
    obtain ⟨b1, k1, l1⟩ := hpick 1 u1
    obtain ⟨b2, k2, l2⟩ := hpick 2 u2
    refine ⟨![b0, b1, b2], fin3_cases k0 k1 k2, ?_⟩
    rw [hlin]
    show inner3 n (cm - px) + b0 * u0 + b1 * u1 + b2 * u2 ≤ 0
    linarith
  · rintro ⟨a, ha, h⟩
    exact ⟨_, ⟨a, fun i => (ha i).le, rfl⟩, h⟩

/-- A hull has a point outside a convex set exactly if one of its vertices is outside. -/
theorem mesh_outside {cm : Vec3} {R : Mat3} {verts hull : List Vec3} (hh : convexHull ℝ {v | v ∈ hull} = convexHull ℝ {v | v ∈ verts}) {C : Set Vec3}
    (hC : Convex ℝ C) : (∃ z ∈ meshSet3 cm R verts, z ∉ C) ↔ ∃ v ∈ hull, cm + R *ᵥ v ∉ C := by
  have hpre : Convex ℝ {v : Vec3 | cm + R *ᵥ v ∈ C} := by
    intro x hx y hy a b ha hb hab
    have e : cm + R *ᵥ (a • x + b • y) = a • (cm + R *ᵥ x) + b • (cm + R *ᵥ y) := by
      rw [Matrix.mulVec_add, Matrix.mulVec_smul, Matrix.mulVec_smul, smul_add, smul_add]
      have : cm = a • cm + b • cm := by rw [← add_smul, hab, one_smul]
      conv_lhs => rw [this]
      abel
    show cm + R *ᵥ (a • x + b • y) ∈ C
    rw [e]
    exact hC hx hy ha hb hab
  have hlist : ∀ l : List Vec3, (∃ v ∈ l, cm + R *ᵥ v ∉ C) ↔ ∃ v ∈ convexHull ℝ {v | v ∈ l}, cm + R *ᵥ v ∉ C := by
    intro l
    constructor
    · rintro ⟨v, hv, h⟩
      exact ⟨v, subset_convexHull ℝ _ hv, h⟩
    · rintro ⟨v, hv, h⟩
      by_contra hcon
      push Not at hcon
      exact h (convexHull_min (fun v hv => hcon v hv) hpre hv)
  have hmesh : (∃ z ∈ meshSet3 cm R verts, z ∉ C) ↔ ∃ v ∈ verts, cm + R *ᵥ v ∉ C := by
    constructor
    · rintro ⟨z, hz, h⟩
      by_contra hcon
      push Not at hcon
      refine h (convexHull_min ?_ hC hz)
      rintro _ ⟨v, hv, rfl⟩
      exact hcon v hv
    · rintro ⟨v, hv, h⟩
      exact ⟨_, subset_convexHull ℝ _ ⟨v, hv, rfl⟩, h⟩
  rw [hmesh, hlist verts, hlist hull, hh]

theorem convex_above (n px : Vec3) : Convex ℝ {z : Vec3 | 0 < inner3 n (z - px)} := by
  intro x hx y hy a b ha hb hab
  have hx : 0 < inner3 n (x - px) := hx
  have hy : 0 < inner3 n (y - px) := hy
  show 0 < inner3 n (a • x + b • y - px)
  have e : inner3 n (a • x + b • y - px) = a * inner3 n (x - px) + b * inner3 n (y - px) := by
    obtain rfl : b = 1 - a := by linarith
    simp only [inner3, Pi.sub_apply, Pi.add_apply, Pi.smul_apply, smul_eq_mul]
    ring
  rw [e]
  rcases ha.lt_or_eq with h | h
  · exact add_pos_of_pos_of_nonneg (mul_pos h hx) (mul_nonneg hb hy.le)
  · obtain rfl : a = 0 := h.symm
    obtain rfl : b = 1 := by linarith
    simpa using hy

theorem convex_inside (c : Cylinder3) : Convex ℝ {z : Vec3 | squaredNorm3 (c.offset z) < c.r * c.r} := by
  intro x hx y hy a b ha hb hab
  have hx : squaredNorm3 (c.offset x) < c.r * c.r := hx
  have hy : squaredNorm3 (c.offset y) < c.r * c.r := hy
  show squaredNorm3 (c.offset (a • x + b • y)) < c.r * c.r
  have e : c.offset (a • x + b • y) = a • c.offset x + b • c.offset y := by
    obtain rfl : b = 1 - a := by linarith
    unfold Cylinder3.offset
    simp only [dot_inner]
    apply vec3_ext <;> simp only [inner3, Pi.sub_apply, Pi.add_apply, Pi.smul_apply, smul_eq_mul] <;> ring
  rw [e]
  have e2 : squaredNorm3 (a • c.offset x + b • c.offset y) = a * squaredNorm3 (c.offset x) + b * squaredNorm3 (c.offset y) -
      a * b * squaredNorm3 (c.offset x - c.offset y) := by
    obtain rfl : b = 1 - a := by linarith
    simp only [squaredNorm3_eq, Pi.sub_apply, Pi.add_apply, Pi.smul_apply, smul_eq_mul]
    ring
  rw [e2]
  have hnn : 0 ≤ squaredNorm3 (c.offset x - c.offset y) := by rw [squaredNorm3_eq]; positivity
  have h3 := mul_nonneg (mul_nonneg ha hb) hnn
  rcases ha.lt_or_eq with h | h
  · have h1 := mul_lt_mul_of_pos_left hx h
    have h2 := mul_le_mul_of_nonneg_left hy.le hb
    have : a * (c.r * c.r) + b * (c.r * c.r) = c.r * c.r := by rw [← add_mul, hab, one_mul]
    linarith
  · obtain rfl : a = 0 := h.symm
    obtain rfl : b = 1 := by linarith
    simpa using hy

theorem distSqAxis_eq {c : Cylinder3} (hu : inner3 c.axis c.axis = 1) (z : Vec3) : c.distSqAxis z = squaredNorm3 (c.offset z) := by
  rw [squaredNorm3_eq]
  unfold Cylinder3.distSqAxis Cylinder3.offset
  rw [dot_inner]
  simp only [inner3, Pi.sub_apply, Pi.smul_apply, smul_eq_mul] at hu ⊢
  linear_combination -(c.axis 0 * (z 0 - c.x 0) + c.axis 1 * (z 1 - c.x 1) + c.axis 2 * (z 2 - c.x 2)) ^ 2 * hu

/-- The distance of any point from the axis of a cylinder and a direction away from it -/
theorem cylinder_away {c : Cylinder3} (hu : inner3 c.axis c.axis = 1) (x : Vec3) :
    ∃ (L al : ℝ) (n : Vec3), 0 ≤ L ∧ inner3 n n = 1 ∧ inner3 n c.axis = 0 ∧ x = c.x + al • c.axis + L • n ∧ squaredNorm3 (c.offset x) = L ^ 2 := by
  by_cases hoff : c.OffAxis x
  · obtain ⟨L, n, hL, h1, h2, h3, h4, _⟩ := cylinder_frame hu hoff
    refine ⟨L, _, n, hL.le, h1, h2, h4, ?_⟩
    rw [h3, squaredNorm3_eq]
    simp only [inner3, Pi.smul_apply, smul_eq_mul] at h1 ⊢
    linear_combination L ^ 2 * h1
  · unfold Cylinder3.OffAxis at hoff
    push Not at hoff
    obtain ⟨t, ht⟩ := hoff
    obtain ⟨h1, h2⟩ := orthogonalVector_spec (n := c.axis) (by rw [dot_inner]; exact hu)
    refine ⟨0, t, orthogonalVector c.axis, le_rfl, by rw [← dot_inner]; exact h1, by rw [← dot_inner, dotProduct_comm]; exact h2, by simp [ht], ?_⟩
    have : c.offset x = 0 := by
      unfold Cylinder3.offset
      rw [ht, dot_inner]
      simp only [inner3] at hu
      apply vec3_ext <;> simp only [inner3, Pi.sub_apply, Pi.add_apply, Pi.smul_apply, smul_eq_mul, Pi.zero_apply]
      · linear_combination -t * c.axis 0 * hu
      · linear_combination -t * c.axis 1 * hu
      · linear_combination -t * c.axis 2 * hu
    rw [this, squaredNorm3_eq]
    simp

theorem ball_outside {c : Cylinder3} (hu : inner3 c.axis c.axis = 1) {x : Vec3} {r : ℝ} (hr : 0 < r) (hrR : r ≤ c.r) :
    (∃ z ∈ ballSet3 x r, c.r ^ 2 ≤ c.distSqAxis z) ↔ squaredNorm3 (c.offset x) ≥ (c.r - r) * (c.r - r) := by
  obtain ⟨L, al, n, hL, hnn, hna, hx, hsq⟩ := cylinder_away hu x
  rw [hsq]
  have h0 := congrFun hx 0
  have h1 := congrFun hx 1
  have h2 := congrFun hx 2
  simp only [Pi.add_apply, Pi.smul_apply, smul_eq_mul] at h0 h1 h2
  simp only [inner3] at hu hnn hna
  have hiff : (c.r - r) * (c.r - r) ≤ L ^ 2 ↔ c.r ≤ L + r := by
    constructor
    · intro h
      have := abs_le_of_sq_le_sq' (a := c.r - r) (b := L) (by linarith [pow_two (c.r - r)]) hL
      linarith [this.2]
    · intro h
      nlinarith
  rw [ge_iff_le, hiff]
  constructor
  · rintro ⟨z, hz, h⟩
    simp only [ballSet3, Set.mem_ofPred_eq] at hz
    set d0 := z 0 - x 0 with hd0
    set d1 := z 1 - x 1 with hd1
    set d2 := z 2 - x 2 with hd2
    have hdist : c.distSqAxis z = L ^ 2 + (d0 ^ 2 + d1 ^ 2 + d2 ^ 2) + 2 * L * (n 0 * d0 + n 1 * d1 + n 2 * d2) -
        (c.axis 0 * d0 + c.axis 1 * d1 + c.axis 2 * d2) ^ 2 := by
      have e0 : z 0 - c.x 0 = al * c.axis 0 + L * n 0 + d0 := by rw [hd0, h0]; ring
      have e1 : z 1 - c.x 1 = al * c.axis 1 + L * n 1 + d1 := by rw [hd1, h1]; ring
      have e2 : z 2 - c.x 2 = al * c.axis 2 + L * n 2 + d2 := by rw [hd2, h2]; ring
      have e3 : c.axis 0 * (al * c.axis 0 + L * n 0 + d0) + c.axis 1 * (al * c.axis 1 + L * n 1 + d1) + c.axis 2 * (al * c.axis 2 + L * n 2 + d2) =
          al + (c.axis 0 * d0 + c.axis 1 * d1 + c.axis 2 * d2) := by linear_combination al * hu + L * hna
      simp only [Cylinder3.distSqAxis, inner3, Pi.sub_apply, e0, e1, e2]
      rw [e3]
      linear_combination al ^ 2 * hu + L ^ 2 * hnn + 2 * al * L * hna
    rw [hdist] at h
    have hcs : (n 0 * d0 + n 1 * d1 + n 2 * d2) ^ 2 ≤ r ^ 2 := by
      have k := cauchy3 (n 0) (n 1) (n 2) d0 d1 d2
      rw [hnn, one_mul] at k
      exact k.trans hz
    have hle := mul_le_mul_of_nonneg_left (abs_le_of_sq_le_sq' hcs hr.le).2 hL
    have hsq' := sq_nonneg (c.axis 0 * d0 + c.axis 1 * d1 + c.axis 2 * d2)
    have hfin : c.r ^ 2 ≤ (L + r) ^ 2 := by
      have e1 : (L + r) ^ 2 = L ^ 2 + r ^ 2 + 2 * (L * r) := by ring
      have e2 : 2 * L * (n 0 * d0 + n 1 * d1 + n 2 * d2) = 2 * (L * (n 0 * d0 + n 1 * d1 + n 2 * d2)) := by ring
      rw [e2] at h
      rw [e1]
      linarith
    exact (abs_le_of_sq_le_sq' hfin (by linarith)).2
  · intro h
    refine ⟨x + r • n, ?_, ?_⟩
    · simp only [ballSet3, Set.mem_ofPred_eq, Pi.add_apply, Pi.smul_apply, smul_eq_mul]
      apply le_of_eq
      linear_combination r ^ 2 * hnn
    · have e : c.distSqAxis (x + r • n) = (L + r) ^ 2 := by
        have e3 : c.axis 0 * (al * c.axis 0 + L * n 0 + r * n 0) + c.axis 1 * (al * c.axis 1 + L * n 1 + r * n 1) +
            c.axis 2 * (al * c.axis 2 + L * n 2 + r * n 2) = al := by linear_combination al * hu + (L + r) * hna
        have f0 : x 0 + r * n 0 - c.x 0 = al * c.axis 0 + L * n 0 + r * n 0 := by rw [h0]; ring
        have f1 : x 1 + r * n 1 - c.x 1 = al * c.axis 1 + L * n 1 + r * n 1 := by rw [h1]; ring
        have f2 : x 2 + r * n 2 - c.x 2 = al * c.axis 2 + L * n 2 + r * n 2 := by rw [h2]; ring
        simp only [Cylinder3.distSqAxis, inner3, Pi.sub_apply, Pi.add_apply, Pi.smul_apply, smul_eq_mul, f0, f1, f2]
        rw [e3]
        linear_combination al ^ 2 * hu + (L + r) ^ 2 * hnn + 2 * al * (L + r) * hna
      rw [e]
      have hcr : 0 < c.r := by linarith
      nlinarith

end Step3

end Scisim
