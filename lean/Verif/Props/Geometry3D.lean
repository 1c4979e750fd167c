import Mathlib.Analysis.Convex.Basic
import Mathlib.Tactic.FinCases
import Mathlib.Tactic.Positivity
import Mathlib.Tactic.Linarith
import Verif.Spec.Geometry3D
import Verif.Lemmas.Rotations
/-!
# C44 in three dimensions
-/

namespace Scisim

open Matrix

theorem mulVec3 (A : Mat3) (v : Vec3) (i : Fin 3) : (A *ᵥ v) i = A i 0 * v 0 + A i 1 * v 1 + A i 2 * v 2 := by
  simp [mulVec, dotProduct, Fin.sum_univ_three]

/-- **C44, spheres.** -/
theorem C44_sphere (r : ℝ) (hr : 0 ≤ r) (cm : Vec3) (R : Mat3) : ∃ bb, (Geometry3D.sphere r).aabb cm R = some bb ∧
    Contains3 bb (ballSet3 cm r) ∧ Touches3 bb (ballSet3 cm r) := by
  refine ⟨_, rfl, ?_, ?_⟩
  · intro z hz i
    have hz : (z 0 - cm 0) ^ 2 + (z 1 - cm 1) ^ 2 + (z 2 - cm 2) ^ 2 ≤ r ^ 2 := hz
    have h : (z i - cm i) ^ 2 ≤ r ^ 2 := by
      have h0 := sq_nonneg (z 0 - cm 0)
      have h1 := sq_nonneg (z 1 - cm 1)
      have h2 := sq_nonneg (z 2 - cm 2)
      fin_cases i <;> simp <;> linarith
    have := abs_le_of_sq_le_sq' h hr
    constructor <;> simp only <;> linarith [this.1, this.2]
  · intro i
    constructor
    · refine ⟨Function.update cm i (cm i - r), ?_, by simp⟩
      simp only [ballSet3, Set.mem_ofPred_eq]
      fin_cases i <;> simp
    · refine ⟨Function.update cm i (cm i + r), ?_, by simp⟩
      simp only [ballSet3, Set.mem_ofPred_eq]
      fin_cases i <;> simp

/-- **C44, boxes in space.** -/
theorem C44_box3 (w : Vec3) (hw : ∀ i, 0 ≤ w i) (cm : Vec3) (R : Mat3) : ∃ bb, (Geometry3D.box w).aabb cm R = some bb ∧
    Contains3 bb (boxSet3 cm R w) ∧ Touches3 bb (boxSet3 cm R w) := by
  refine ⟨_, rfl, ?_, ?_⟩
  · rintro z ⟨a, ha, rfl⟩ i
    have key : ∀ j, |R i j * a j| ≤ |R i j| * w j := fun j => by
      rw [abs_mul]; exact mul_le_mul_of_nonneg_left (ha j) (abs_nonneg _)
    have h0 := abs_le.mp (key 0)
    have h1 := abs_le.mp (key 1)
    have h2 := abs_le.mp (key 2)
    simp only [Pi.add_apply, mulVec3, Matrix.map_apply]
    constructor <;> linarith [h0.1, h0.2, h1.1, h1.2, h2.1, h2.2]
  · intro i
    have hs : ∀ x : ℝ, x * (if 0 ≤ x then 1 else -1) = |x| := by
      intro x
      split
      · rw [abs_of_nonneg (by assumption)]; ring
      · rw [abs_of_neg (by linarith)]; ring
    have hb : ∀ (x y : ℝ), 0 ≤ y → |y * (if 0 ≤ x then 1 else -1)| ≤ y := by
      intro x y hy
      split <;> simp [abs_of_nonneg hy]
    constructor
    · refine ⟨cm + R *ᵥ fun j => -(w j * (if 0 ≤ R i j then 1 else -1)), ⟨_, fun j => ?_, rfl⟩, ?_⟩
      · rw [abs_neg]; exact hb _ _ (hw j)
      · simp only [Pi.add_apply, mulVec3, Matrix.map_apply, ← hs]
        ring
    · refine ⟨cm + R *ᵥ fun j => w j * (if 0 ≤ R i j then 1 else -1), ⟨_, fun j => hb _ _ (hw j), rfl⟩, ?_⟩
      simp only [Pi.add_apply, mulVec3, Matrix.map_apply, ← hs]
      ring

/-- What the loop over points computes: a box whose sides are reached by points and which contains all of them -/
theorem growFold_spec {α : Type} (f : α → Option (Vec3 × Vec3)) (S : α → Set Vec3) (xs : List α) :
    ∀ (acc : Option (Vec3 × Vec3)) (T : Set Vec3), (∀ a ∈ xs, ∃ bb, f a = some bb ∧ Contains3 bb (S a) ∧ Touches3 bb (S a)) →
      (match acc with | none => T = ∅ | some bb => Contains3 bb T ∧ Touches3 bb T) →
      (match xs.foldl (fun bounds a => match f a with | none => bounds | some (lo, hi) => growBox bounds lo hi) acc with
        | none => acc = none ∧ xs = []
        | some bb => Contains3 bb (T ∪ {z | ∃ a ∈ xs, z ∈ S a}) ∧ Touches3 bb (T ∪ {z | ∃ a ∈ xs, z ∈ S a})) := by
  induction xs with
  | nil =>
    intro acc T _ h
    cases acc with
    | none => exact ⟨rfl, rfl⟩
    | some bb =>
      have : T ∪ {z | ∃ a ∈ ([] : List α), z ∈ S a} = T := by ext; simp
      simp only [List.foldl_nil]
      rw [this]; exact h
  | cons a xs ih =>
    intro acc T hall h
    obtain ⟨bb, hf, hc, ht⟩ := hall a (List.mem_cons_self ..)
    rw [List.foldl_cons, hf]
    have h' := ih (growBox acc bb.1 bb.2) (T ∪ S a) (fun b hb => hall b (List.mem_cons_of_mem _ hb)) (by
      cases acc with
      | none =>
        simp only at h
        rw [h, Set.empty_union]
        exact ⟨hc, ht⟩
      | some b0 =>
        obtain ⟨hc0, ht0⟩ := h
        simp only [growBox]
        refine ⟨?_, ?_⟩
        · rintro z (hz | hz) i
          · exact ⟨(min_le_left _ _).trans (hc0 z hz i).1, (hc0 z hz i).2.trans (le_max_left _ _)⟩
          · exact ⟨(min_le_right _ _).trans (hc z hz i).1, (hc z hz i).2.trans (le_max_right _ _)⟩
        · intro i
          constructor
          · rcases min_choice (b0.1 i) (bb.1 i) with e | e
            · obtain ⟨z, hz, hzi⟩ := (ht0 i).1
              exact ⟨z, Or.inl hz, by simp only; rw [e]; exact hzi⟩
            · obtain ⟨z, hz, hzi⟩ := (ht i).1
              exact ⟨z, Or.inr hz, by simp only; rw [e]; exact hzi⟩
          · rcases max_choice (b0.2 i) (bb.2 i) with e | e
            · obtain ⟨z, hz, hzi⟩ := (ht0 i).2
              exact ⟨z, Or.inl hz, by simp only; rw [e]; exact hzi⟩
            · obtain ⟨z, hz, hzi⟩ := (ht i).2
              exact ⟨z, Or.inr hz, by simp only; rw [e]; exact hzi⟩)
    have hset : T ∪ S a ∪ {z | ∃ b ∈ xs, z ∈ S b} = T ∪ {z | ∃ b ∈ a :: xs, z ∈ S b} := by
      ext z; simp [or_assoc]
    obtain ⟨lo, hi⟩ := bb
    simp only at h' ⊢
    rw [hset] at h'
    revert h'
    generalize List.foldl _ (growBox acc lo hi) xs = res
    cases res with
    | none =>
      rintro ⟨h1, _⟩
      cases acc <;> simp [growBox] at h1
    | some bb' => exact id

/-- The box of a list of points: it contains their convex hull and is touched by it on all sides. -/
theorem pointsAABB_spec (pts : List Vec3) (hne : pts ≠ []) (cm : Vec3) (R : Mat3) :
    ∃ bb, pointsAABB pts cm R = some bb ∧ Contains3 bb (meshSet3 cm R pts) ∧ Touches3 bb (meshSet3 cm R pts) := by
  have h := growFold_spec (fun p : Vec3 => some (R *ᵥ p + cm, R *ᵥ p + cm)) (fun p => {R *ᵥ p + cm}) pts none ∅
    (fun a _ => ⟨_, rfl, by rintro z rfl i; exact ⟨le_refl _, le_refl _⟩, fun i => ⟨⟨_, rfl, rfl⟩, ⟨_, rfl, rfl⟩⟩⟩) rfl
  have hset : (∅ : Set Vec3) ∪ {z | ∃ a ∈ pts, z ∈ ({R *ᵥ a + cm} : Set Vec3)} = {z | ∃ v ∈ pts, z = cm + R *ᵥ v} := by
    ext z; simp [add_comm]
  rw [hset] at h
  have hfold : pointsAABB pts cm R = pts.foldl (fun bounds a =>
      match (fun p : Vec3 => some (R *ᵥ p + cm, R *ᵥ p + cm)) a with
      | none => bounds | some (lo, hi) => growBox bounds lo hi) none := rfl
  rw [← hfold] at h
  cases hr : pointsAABB pts cm R with
  | none => rw [hr] at h; exact absurd h.2 hne
  | some bb =>
    rw [hr] at h
    refine ⟨bb, rfl, ?_, fun i => ⟨?_, ?_⟩⟩
    · have hconv : Convex ℝ {z : Vec3 | ∀ i, bb.1 i ≤ z i ∧ z i ≤ bb.2 i} := by
        have : {z : Vec3 | ∀ i, bb.1 i ≤ z i ∧ z i ≤ bb.2 i} = Set.Icc bb.1 bb.2 := by
          ext z
          simp only [Set.mem_Icc, Pi.le_def, Set.mem_ofPred_eq, forall_and]
        rw [this]
        exact convex_Icc _ _
      exact convexHull_min (fun z hz => h.1 z hz) hconv
    · obtain ⟨z, hz, e⟩ := (h.2 i).1
      exact ⟨z, subset_convexHull ℝ _ hz, e⟩
    · obtain ⟨z, hz, e⟩ := (h.2 i).2
      exact ⟨z, subset_convexHull ℝ _ hz, e⟩

/-- **C44, triangle meshes.** The box contains the convex hull of the vertices, and so all triangles and what they enclose; vertices
touch all its sides. -/
theorem C44_mesh (verts : List Vec3) (hne : verts ≠ []) (cm : Vec3) (R : Mat3) : ∃ bb, (Geometry3D.mesh verts).aabb cm R = some bb ∧
    Contains3 bb (meshSet3 cm R verts) ∧ Touches3 bb (meshSet3 cm R verts) ∧
    ∀ i, (∃ v ∈ verts, (cm + R *ᵥ v) i = bb.1 i) ∧ (∃ v ∈ verts, (cm + R *ᵥ v) i = bb.2 i) := by
  obtain ⟨bb, h1, h2, h3⟩ := pointsAABB_spec verts hne cm R
  refine ⟨bb, h1, h2, h3, fun i => ?_⟩
  have h := growFold_spec (fun p : Vec3 => some (R *ᵥ p + cm, R *ᵥ p + cm)) (fun p => {R *ᵥ p + cm}) verts none ∅
    (fun a _ => ⟨_, rfl, by rintro z rfl i; exact ⟨le_refl _, le_refl _⟩, fun i => ⟨⟨_, rfl, rfl⟩, ⟨_, rfl, rfl⟩⟩⟩) rfl
  have hfold : pointsAABB verts cm R = verts.foldl (fun bounds a =>
      match (fun p : Vec3 => some (R *ᵥ p + cm, R *ᵥ p + cm)) a with
      | none => bounds | some (lo, hi) => growBox bounds lo hi) none := rfl
  rw [← hfold, h1] at h
  obtain ⟨⟨z, hz, e⟩, ⟨z', hz', e'⟩⟩ := h.2 i
  simp only [Set.empty_union, Set.mem_ofPred_eq, Set.mem_singleton_iff] at hz hz'
  obtain ⟨v, hv, rfl⟩ := hz
  obtain ⟨v', hv', rfl⟩ := hz'
  exact ⟨⟨v, hv, by rw [add_comm]; exact e⟩, ⟨v', hv', by rw [add_comm]; exact e'⟩⟩

/-- **C44, any body but a staple.** -/
theorem C44_body3 (b : PosedBody3D) (hb : b.Solid) : ∃ bb, b.geometry.aabb b.cm b.R = some bb ∧
    Contains3 bb b.points ∧ Touches3 bb b.points := by
  obtain ⟨g, cm, R⟩ := b
  cases g with
  | sphere r => exact C44_sphere r hb cm R
  | box w => exact C44_box3 w hb cm R
  | staple s => exact hb.elim
  | mesh verts =>
    obtain ⟨bb, h1, h2, h3, _⟩ := C44_mesh verts hb cm R
    exact ⟨bb, h1, h2, h3⟩

/-- **C44, the scene.** The bounding box of a scene contains all bodies and is touched on all sides; the bounding sphere contains
all bodies. -/
theorem C44_scene3 (bodies : List PosedBody3D) (hb : ∀ b ∈ bodies, b.Solid) (hne : bodies ≠ []) :
    ∃ bb rc, sceneBoundingBox3 bodies = some bb ∧ Contains3 bb {z | ∃ b ∈ bodies, z ∈ b.points} ∧
      Touches3 bb {z | ∃ b ∈ bodies, z ∈ b.points} ∧
      sceneBoundingSphere bodies = some rc ∧ ∀ b ∈ bodies, b.points ⊆ ballSet3 rc.2 rc.1 := by
  have h := growFold_spec (fun b : PosedBody3D => b.geometry.aabb b.cm b.R) (fun b => b.points) bodies none ∅
    (fun b hm => C44_body3 b (hb b hm)) rfl
  have hfold : sceneBoundingBox3 bodies = bodies.foldl (fun bounds a =>
      match (fun b : PosedBody3D => b.geometry.aabb b.cm b.R) a with
      | none => bounds | some (lo, hi) => growBox bounds lo hi) none := rfl
  rw [← hfold, Set.empty_union] at h
  unfold sceneBoundingSphere
  cases hr : sceneBoundingBox3 bodies with
  | none => rw [hr] at h; exact absurd h.2 hne
  | some bb =>
    rw [hr] at h
    obtain ⟨lo, hi⟩ := bb
    refine ⟨_, _, rfl, h.1, h.2, rfl, fun b hm z hz => ?_⟩
    have hz' := h.1 z ⟨b, hm, hz⟩
    simp only at hz' ⊢
    simp only [ballSet3, Set.mem_ofPred_eq]
    rw [Real.sq_sqrt (by nlinarith [mul_self_nonneg (1 / 2 * (lo 0 + hi 0) - hi 0), mul_self_nonneg (1 / 2 * (lo 1 + hi 1) - hi 1), mul_self_nonneg (1 / 2 * (lo 2 + hi 2) - hi 2)])]
    have key : ∀ i, (z i - 1 / 2 * (lo i + hi i)) ^ 2 ≤ (1 / 2 * (lo i + hi i) - hi i) * (1 / 2 * (lo i + hi i) - hi i) := by
      intro i
      have := hz' i
      nlinarith [mul_nonneg (sub_nonneg.mpr this.1) (sub_nonneg.mpr this.2)]
    have h0 := key 0
    have h1 := key 1
    have h2 := key 2
    simp only [Matrix.cons_val_zero, Matrix.cons_val_one, Matrix.cons_val] at h0 h1 h2 ⊢
    linarith

/-- Non-vacuity: a turned box beside a ball -/
example : ∃ bb rc, sceneBoundingBox3 [⟨.box ![1, 2, 3], ![1, 0, 0], angleAxisMatrix 1 ![0, 0, 1]⟩, ⟨.sphere 2, ![0, 5, 0], 1⟩] = some bb ∧
    sceneBoundingSphere [⟨.box ![1, 2, 3], ![1, 0, 0], angleAxisMatrix 1 ![0, 0, 1]⟩, ⟨.sphere 2, ![0, 5, 0], 1⟩] = some rc := by
  obtain ⟨bb, rc, h1, _, _, h2, _⟩ := C44_scene3 [⟨.box ![1, 2, 3], ![1, 0, 0], angleAxisMatrix 1 ![0, 0, 1]⟩, ⟨.sphere 2, ![0, 5, 0], 1⟩]
    (by
      intro b hb
      simp only [List.mem_cons, List.not_mem_nil, or_false] at hb
      rcases hb with rfl | rfl
      · intro i
        fin_cases i <;> norm_num
      · show (0 : ℝ) ≤ 2
        norm_num) (by simp)
  exact ⟨bb, rc, h1, h2⟩

/-- **C44 is false for staples**: the box ignores the radius, so whatever its size, pose and radius, a staple reaches out of its box. -/
theorem C44_false_staple (w l D : ℝ) (hD : 0 < D) (cm : Vec3) (R : Mat3) :
    ∃ bb, (Geometry3D.staple (Staple.make w l D)).aabb cm R = some bb ∧ ¬ Contains3 bb (stapleSet3 cm R (Staple.make w l D)) := by
  set s := Staple.make w l D with hs
  have hr : 0 < s.r := by rw [hs]; show (0 : ℝ) < 1 / 2 * D; positivity
  obtain ⟨bb, h1, h2, h3, h4⟩ := C44_mesh s.corners (by simp [Staple.corners]) cm R
  refine ⟨bb, h1, fun hc => ?_⟩
  obtain ⟨v, hv, hvi⟩ := (h4 0).2
  -- the corner that touches the upper side is the start or the end of a segment
  have hseg : ∃ p q : Vec3, [p, q] <:+: s.corners ∧ ∃ t : ℝ, 0 ≤ t ∧ t ≤ 1 ∧ v = p + t • (q - p) := by
    unfold Staple.corners at hv ⊢
    simp only [List.mem_cons, List.not_mem_nil, or_false] at hv
    rcases hv with rfl | rfl | rfl | rfl
    · exact ⟨_, _, ⟨[], [_, _], rfl⟩, 0, le_refl _, zero_le_one, by rw [zero_smul, add_zero]⟩
    · exact ⟨_, _, ⟨[_], [_], rfl⟩, 0, le_refl _, zero_le_one, by rw [zero_smul, add_zero]⟩
    · exact ⟨_, _, ⟨[_, _], [], rfl⟩, 0, le_refl _, zero_le_one, by rw [zero_smul, add_zero]⟩
    · exact ⟨_, _, ⟨[_, _], [], rfl⟩, 1, zero_le_one, le_refl _, by rw [one_smul, add_sub_cancel]⟩
  obtain ⟨p, q, hpq, t, ht0, ht1, e⟩ := hseg
  have hmem : Function.update (cm + R *ᵥ v) 0 ((cm + R *ᵥ v) 0 + s.r) ∈ stapleSet3 cm R s := by
    refine ⟨p, q, hpq, t, ht0, ht1, ?_⟩
    rw [← e]
    simp only [ballSet3, Set.mem_ofPred_eq]
    simp
  have := (hc _ hmem 0).2
  rw [Function.update_self] at this
  linarith

end Scisim
