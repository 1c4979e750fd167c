import Verif.Spec.RigidPortals3D
import Verif.Lemmas.RigidContactLists3D
import Verif.Lemmas.BallContactLists
import Verif.Lemmas.RigidContacts3D
/-!
# The contact list of the 3D rigid body simulation with portals: helper lemmas
-/

namespace Scisim

namespace Step3

open Matrix

variable {axis : Vec3 → Vec3 → Vec3} {portals : List Portal3} {s : Step3}

/-! ## Boxes -/

theorem aabb_some_of_valid {b : SceneBody3} {c : Vec3} {R : Mat3} (h : (toBox3 (b.geometry.aabb c R)).Valid) : ∃ A, b.geometry.aabb c R = some A := by
  cases hb : b.geometry.aabb c R with
  | some A => exact ⟨A, rfl⟩
  | none =>
    rw [hb] at h
    exact absurd (h 0) (lt_irrefl _)

theorem inBox3_iff {b : SceneBody3} {q : Pose3} {i : Nat} {c z : Vec3} (h : (toBox3 (b.geometry.aabb c (q.R i))).Valid) :
    InBox3 b q i c z ↔ (toBox3 (b.geometry.aabb c (q.R i))).Contains z := by
  obtain ⟨A, hA⟩ := aabb_some_of_valid h
  unfold InBox3
  rw [hA]
  constructor
  · rintro ⟨B, hB, hz⟩
    cases hB
    exact hz
  · intro hz
    exact ⟨A, rfl, hz⟩

theorem imageBoxesMeet3_iff {u v : Image} {a b : SceneBody3} {ca cb : Vec3} (ha : (toBox3 (a.geometry.aabb ca (s.q1.R u.body))).Valid)
    (hb : (toBox3 (b.geometry.aabb cb (s.q1.R v.body))).Valid) :
    ImageBoxesMeet3 s u v a b ca cb ↔ Overlap (toBox3 (a.geometry.aabb ca (s.q1.R u.body))) (toBox3 (b.geometry.aabb cb (s.q1.R v.body))) := by
  unfold ImageBoxesMeet3 Overlap
  simp only [inBox3_iff ha, inBox3_iff hb]

theorem height_eq (p : Plane3) (z : Vec3) : p.distanceToPoint z = p.height z := by
  simp [Plane3.distanceToPoint, Plane3.height, inner3, dotProduct, Fin.sum_univ_three]
  ring

/-- a corner of the box is not in front of the plane exactly if some point of the box is not -/
theorem aabbInHalfPlane3_iff {b : SceneBody3} {i : Nat} (h : (toBox3 (b.geometry.aabb (s.q1.x i) (s.q1.R i))).Valid) (p : Plane3) :
    Portal3.aabbInHalfPlane (toBox3 (b.geometry.aabb (s.q1.x i) (s.q1.R i))).min (toBox3 (b.geometry.aabb (s.q1.x i) (s.q1.R i))).max p ↔
      BoxReaches3 s b i p := by
  unfold BoxReaches3
  simp only [inBox3_iff h]
  generalize toBox3 (b.geometry.aabb (s.q1.x i) (s.q1.R i)) = B at h ⊢
  obtain ⟨lo, hi⟩ := B
  have h0 : lo 0 < hi 0 := h 0
  have h1 : lo 1 < hi 1 := h 1
  have h2 : lo 2 < hi 2 := h 2
  unfold Portal3.aabbInHalfPlane
  simp only [height_eq]
  constructor
  · have mk : ∀ a b c : ℝ, (lo 0 ≤ a ∧ a ≤ hi 0) → (lo 1 ≤ b ∧ b ≤ hi 1) → (lo 2 ≤ c ∧ c ≤ hi 2) → p.height ![a, b, c] ≤ 0 →
        ∃ z, (⟨lo, hi⟩ : Box 3 ℝ).Contains z ∧ p.height z ≤ 0 := by
      intro a b c ha hb hc hh
      refine ⟨![a, b, c], fun t => ?_, hh⟩
      fin_cases t
      · exact ha
      · exact hb
      · exact hc
    rintro (hh | hh | hh | hh | hh | hh | hh | hh) <;>
      exact mk _ _ _ ⟨by simp [h0.le], by simp [h0.le]⟩ ⟨by simp [h1.le], by simp [h1.le]⟩ ⟨by simp [h2.le], by simp [h2.le]⟩ hh
  · rintro ⟨z, hz, hh⟩
    have k0 : lo 0 ≤ z 0 ∧ z 0 ≤ hi 0 := hz 0
    have k1 : lo 1 ≤ z 1 ∧ z 1 ≤ hi 1 := hz 1
    have k2 : lo 2 ≤ z 2 ∧ z 2 ≤ hi 2 := hz 2
    have pick : ∀ n l h z : ℝ, l ≤ z → z ≤ h → n * l ≤ n * z ∨ n * h ≤ n * z := by
      intro n l h z h1 h2
      rcases le_total 0 n with hn | hn
      · exact Or.inl (mul_le_mul_of_nonneg_left h1 hn)
      · exact Or.inr (mul_le_mul_of_nonpos_left h2 hn)
    simp only [Plane3.height, inner3] at hh ⊢
    simp only [Matrix.cons_val_zero, Matrix.cons_val_one, Matrix.cons_val]
    rcases pick (p.n 0) (lo 0) (hi 0) (z 0) k0.1 k0.2 with e0 | e0 <;> rcases pick (p.n 1) (lo 1) (hi 1) (z 1) k1.1 k1.2 with e1 | e1 <;>
      rcases pick (p.n 2) (lo 2) (hi 2) (z 2) k2.1 k2.2 with e2 | e2
    · exact Or.inl (by linarith)
    · exact Or.inr (Or.inl (by linarith))
    · exact Or.inr (Or.inr (Or.inl (by linarith)))
    · exact Or.inr (Or.inr (Or.inr (Or.inl (by linarith))))
    · exact Or.inr (Or.inr (Or.inr (Or.inr (Or.inl (by linarith)))))
    · exact Or.inr (Or.inr (Or.inr (Or.inr (Or.inr (Or.inl (by linarith))))))
    · exact Or.inr (Or.inr (Or.inr (Or.inr (Or.inr (Or.inr (Or.inl (by linarith)))))))
    · exact Or.inr (Or.inr (Or.inr (Or.inr (Or.inr (Or.inr (Or.inr (by linarith)))))))

theorem touches3_iff {b : SceneBody3} {i : Nat} (h : (toBox3 (b.geometry.aabb (s.q1.x i) (s.q1.R i))).Valid) (p : Portal3) (plane : Bool) :
    p.aabbTouchesPortal (toBox3 (b.geometry.aabb (s.q1.x i) (s.q1.R i))).min (toBox3 (b.geometry.aabb (s.q1.x i) (s.q1.R i))).max = some plane ↔
      (plane = false ∧ BoxReaches3 s b i p.planeA) ∨ (plane = true ∧ ¬BoxReaches3 s b i p.planeA ∧ BoxReaches3 s b i p.planeB) := by
  unfold Portal3.aabbTouchesPortal
  have hA := aabbInHalfPlane3_iff h p.planeA
  have hB := aabbInHalfPlane3_iff h p.planeB
  by_cases h1 : BoxReaches3 s b i p.planeA
  · rw [if_pos (hA.mpr h1)]
    cases plane <;> simp [h1]
  · rw [if_neg (fun h => h1 (hA.mp h))]
    by_cases h2 : BoxReaches3 s b i p.planeB
    · rw [if_pos (hB.mpr h2)]
      cases plane <;> simp [h1, h2]
    · rw [if_neg (fun h => h2 (hB.mp h))]
      simp [h1, h2]

/-! ## Images -/

theorem mem_teleportedBodies3 {e : TeleportedBall × Box 3 ℝ} : e ∈ s.teleportedBodies axis portals ↔
    ∃ p b, portals[e.1.portal]? = some p ∧ s.bodies[e.1.body]? = some b ∧
      p.aabbTouchesPortal (toBox3 (b.geometry.aabb (s.q1.x e.1.body) (s.q1.R e.1.body))).min
        (toBox3 (b.geometry.aabb (s.q1.x e.1.body) (s.q1.R e.1.body))).max = some e.1.plane ∧
      e.2 = toBox3 (b.geometry.aabb (p.teleportPoint axis (s.q1.x e.1.body) e.1.plane) (s.q1.R e.1.body)) := by
  unfold teleportedBodies
  simp only [List.mem_flatMap, List.mem_filterMap]
  constructor
  · rintro ⟨⟨p, k⟩, hp, ⟨b, i⟩, hb, h⟩
    rw [List.mk_mem_zipIdx_iff_getElem?] at hp hb
    obtain ⟨pl, hpl, rfl⟩ := Option.map_eq_some_iff.mp h
    exact ⟨p, b, hp, hb, hpl, rfl⟩
  · rintro ⟨p, b, hp, hb, h, he⟩
    refine ⟨(p, e.1.portal), by rw [List.mk_mem_zipIdx_iff_getElem?]; exact hp, (b, e.1.body), by rw [List.mk_mem_zipIdx_iff_getElem?]; exact hb, ?_⟩
    dsimp only
    rw [h, Option.map_some]
    obtain ⟨⟨i, k, pl⟩, bx⟩ := e
    dsimp only at he
    rw [he]

theorem endBoxes_length : s.endBoxes.length = s.bodies.length := by simp [endBoxes]

theorem portalBoxes3_get {k : Nat} (hk : k < s.bodies.length) :
    (s.portalBoxes3 axis portals)[k]? = (s.bodies[k]?).map fun b => toBox3 (b.geometry.aabb (s.q1.x k) (s.q1.R k)) := by
  unfold portalBoxes3
  rw [List.getElem?_append_left (by rw [endBoxes_length]; exact hk), endBoxes_get]

theorem end_valid (hv : ∀ B ∈ s.portalBoxes3 axis portals, B.Valid) {i : Nat} {b : SceneBody3} (hb : s.bodies[i]? = some b) :
    (toBox3 (b.geometry.aabb (s.q1.x i) (s.q1.R i))).Valid := by
  refine hv _ (List.mem_of_getElem? (i := i) ?_)
  rw [portalBoxes3_get (List.getElem?_eq_some_iff.mp hb).1, hb]
  rfl

/-- every box is the box around the image its index stands for -/
theorem image_of_box3 (hv : ∀ B ∈ s.portalBoxes3 axis portals, B.Valid) {k : Nat} {box : Box 3 ℝ} (hk : (s.portalBoxes3 axis portals)[k]? = some box) :
    ∃ b c, IsImage3 axis portals s (imageOf s.bodies.length ((s.teleportedBodies axis portals).map (·.1)) k) b c ∧
      box = toBox3 (b.geometry.aabb c (s.q1.R (imageOf s.bodies.length ((s.teleportedBodies axis portals).map (·.1)) k).body)) := by
  by_cases hl : k < s.bodies.length
  · rw [portalBoxes3_get hl] at hk
    obtain ⟨b, hb, rfl⟩ := Option.map_eq_some_iff.mp hk
    have hi : imageOf s.bodies.length ((s.teleportedBodies axis portals).map (·.1)) k = ⟨k, none⟩ := by simp [imageOf, hl]
    rw [hi]
    exact ⟨b, s.q1.x k, ⟨hb, rfl⟩, rfl⟩
  · unfold portalBoxes3 at hk
    rw [List.getElem?_append_right (by rw [endBoxes_length]; omega)] at hk
    simp only [endBoxes_length, List.getElem?_map] at hk
    obtain ⟨e, he, rfl⟩ := Option.map_eq_some_iff.mp hk
    obtain ⟨p, b, hp, hb, ht, hbox⟩ := mem_teleportedBodies3.mp (List.mem_of_getElem? he)
    have himg : imageOf s.bodies.length ((s.teleportedBodies axis portals).map (·.1)) k = ⟨e.1.body, some (e.1.portal, e.1.plane)⟩ := by
      simp [imageOf, hl, List.getElem?_map, he]
    rw [himg]
    refine ⟨b, p.teleportPoint axis (s.q1.x e.1.body) e.1.plane, ⟨hb, p, hp, ?_⟩, hbox⟩
    rcases (touches3_iff (end_valid hv hb) p e.1.plane).mp ht with ⟨h1, h2⟩ | ⟨h1, h2, h3⟩
    · exact Or.inl ⟨h1, h2, by rw [h1]; rfl⟩
    · exact Or.inr ⟨h1, h2, h3, by rw [h1]; rfl⟩

/-- every image has a box -/
theorem box_of_image3 (hv : ∀ B ∈ s.portalBoxes3 axis portals, B.Valid) {u : Image} {b : SceneBody3} {c : Vec3} (hu : IsImage3 axis portals s u b c) :
    ∃ k, imageOf s.bodies.length ((s.teleportedBodies axis portals).map (·.1)) k = u ∧
      (s.portalBoxes3 axis portals)[k]? = some (toBox3 (b.geometry.aabb c (s.q1.R u.body))) := by
  obtain ⟨body, via⟩ := u
  obtain ⟨hb, hvia⟩ := hu
  cases via with
  | none =>
    dsimp only at hb hvia
    have hl := (List.getElem?_eq_some_iff.mp hb).1
    refine ⟨body, by simp [imageOf, hl], ?_⟩
    rw [portalBoxes3_get hl, hb, hvia]
    rfl
  | some v =>
    obtain ⟨m, plane⟩ := v
    dsimp only at hb hvia
    obtain ⟨p, hp, hvia⟩ := hvia
    have ht : p.aabbTouchesPortal (toBox3 (b.geometry.aabb (s.q1.x body) (s.q1.R body))).min
        (toBox3 (b.geometry.aabb (s.q1.x body) (s.q1.R body))).max = some plane := by
      rw [touches3_iff (end_valid hv hb)]
      rcases hvia with ⟨h1, h2, _⟩ | ⟨h1, h2, h3, _⟩
      · exact Or.inl ⟨h1, h2⟩
      · exact Or.inr ⟨h1, h2, h3⟩
    have hc : c = p.teleportPoint axis (s.q1.x body) plane := by
      rcases hvia with ⟨rfl, _, h⟩ | ⟨rfl, _, _, h⟩ <;> rw [h] <;> rfl
    have hmem : ((⟨body, m, plane⟩ : TeleportedBall), toBox3 (b.geometry.aabb c (s.q1.R body))) ∈ s.teleportedBodies axis portals :=
      mem_teleportedBodies3.mpr ⟨p, b, hp, hb, ht, by rw [hc]⟩
    obtain ⟨k, hk⟩ := List.mem_iff_getElem?.mp hmem
    refine ⟨s.bodies.length + k, ?_, ?_⟩
    · simp [imageOf, hk]
    · unfold portalBoxes3
      rw [List.getElem?_append_right (by simp [endBoxes_length])]
      simp [hk, endBoxes_length]

theorem image_valid (hv : ∀ B ∈ s.portalBoxes3 axis portals, B.Valid) {u : Image} {b : SceneBody3} {c : Vec3} (hu : IsImage3 axis portals s u b c) :
    (toBox3 (b.geometry.aabb c (s.q1.R u.body))).Valid := by
  obtain ⟨k, _, hk⟩ := box_of_image3 hv hu
  exact hv _ (List.mem_of_getElem? hk)

theorem isImage3_unique {u : Image} {b b' : SceneBody3} {c c' : Vec3} (h : IsImage3 axis portals s u b c) (h' : IsImage3 axis portals s u b' c') :
    b = b' ∧ c = c' := by
  obtain ⟨h1, h2⟩ := h
  obtain ⟨h1', h2'⟩ := h'
  rw [h1] at h1'
  cases h1'
  refine ⟨rfl, ?_⟩
  cases hv : u.via with
  | none => rw [hv] at h2 h2'; exact h2.trans h2'.symm
  | some v =>
    rw [hv] at h2 h2'
    obtain ⟨p, hp, h2⟩ := h2
    obtain ⟨p', hp', h2'⟩ := h2'
    rw [hp] at hp'
    cases hp'
    rcases h2 with ⟨e, _, h2⟩ | ⟨e, _, _, h2⟩ <;> rcases h2' with ⟨e', _, h2'⟩ | ⟨e', _, _, h2'⟩
    · exact h2.trans h2'.symm
    · rw [e] at e'; cases e'
    · rw [e] at e'; cases e'
    · exact h2.trans h2'.symm

theorem imageCenter3_of_image {u : Image} {b : SceneBody3} {c : Vec3} (h : IsImage3 axis portals s u b c) : imageCenter3 axis portals s.q1 u = c := by
  obtain ⟨_, h⟩ := h
  unfold imageCenter3
  cases hv : u.via with
  | none => rw [hv] at h; exact h.symm
  | some v =>
    rw [hv] at h
    obtain ⟨p, hp, h⟩ := h
    simp only [hp]
    rcases h with ⟨e, _, h⟩ | ⟨e, _, _, h⟩ <;> simp [e, h]

/-- Different boxes belong to different images. -/
theorem imageOf_inj3 {k l : Nat} (hk : k < (s.portalBoxes3 axis portals).length) (hl : l < (s.portalBoxes3 axis portals).length)
    (h : imageOf s.bodies.length ((s.teleportedBodies axis portals).map (·.1)) k = imageOf s.bodies.length ((s.teleportedBodies axis portals).map (·.1)) l) :
    k = l := by
  have hnd : ((s.teleportedBodies axis portals).map fun e => (e.1.portal, e.1.body)).Nodup := by
    unfold teleportedBodies
    rw [List.map_flatMap]
    refine flatMap_zipIdx_nodup _ _ (fun e => e.1) ?_ ?_
    · intro x
      dsimp only
      rw [List.map_filterMap]
      refine filterMap_zipIdx_nodup _ _ (fun e => e.2) ?_
      intro a i b h
      obtain ⟨e, he, rfl⟩ := Option.map_eq_some_iff.mp h
      obtain ⟨pl, _, rfl⟩ := Option.map_eq_some_iff.mp he
      rfl
    · intro a i b hb
      obtain ⟨e, he, rfl⟩ := List.mem_map.mp hb
      obtain ⟨x, _, he⟩ := List.mem_filterMap.mp he
      obtain ⟨pl, _, rfl⟩ := Option.map_eq_some_iff.mp he
      rfl
  have hlen : (s.portalBoxes3 axis portals).length = s.bodies.length + (s.teleportedBodies axis portals).length := by
    simp [portalBoxes3, endBoxes_length]
  rw [hlen] at hk hl
  have key : ∀ {k : Nat}, ¬k < s.bodies.length → k < s.bodies.length + (s.teleportedBodies axis portals).length →
      ∃ e, (s.teleportedBodies axis portals)[k - s.bodies.length]? = some e ∧
        imageOf s.bodies.length ((s.teleportedBodies axis portals).map (·.1)) k = ⟨e.1.body, some (e.1.portal, e.1.plane)⟩ := by
    intro k h1 h2
    have h3 : k - s.bodies.length < (s.teleportedBodies axis portals).length := by omega
    refine ⟨_, List.getElem?_eq_getElem h3, ?_⟩
    simp [imageOf, h1, List.getElem?_map, List.getElem?_eq_getElem h3]
  by_cases h1 : k < s.bodies.length
  · by_cases h2 : l < s.bodies.length
    · simpa [imageOf, h1, h2] using h
    · obtain ⟨e, _, he⟩ := key h2 hl
      rw [he] at h
      simp [imageOf, h1] at h
  · obtain ⟨e, he, hi⟩ := key h1 hk
    by_cases h2 : l < s.bodies.length
    · rw [hi] at h
      simp [imageOf, h2] at h
    · obtain ⟨e', he', hi'⟩ := key h2 hl
      rw [hi, hi'] at h
      simp only [Image.mk.injEq, Option.some.injEq, Prod.mk.injEq] at h
      have hg : ((s.teleportedBodies axis portals).map fun e => (e.1.portal, e.1.body))[k - s.bodies.length]? =
          ((s.teleportedBodies axis portals).map fun e => (e.1.portal, e.1.body))[l - s.bodies.length]? := by
        rw [List.getElem?_map, List.getElem?_map, he, he']
        simp [h]
      have := (List.getElem?_inj (by simp; omega) hnd).mp hg
      omega

theorem imageOf_direct3 {k : Nat} (hk : k < (s.portalBoxes3 axis portals).length)
    (h : (imageOf s.bodies.length ((s.teleportedBodies axis portals).map (·.1)) k).via = none) :
    imageOf s.bodies.length ((s.teleportedBodies axis portals).map (·.1)) k = ⟨k, none⟩ := by
  by_cases hl : k < s.bodies.length
  · simp [imageOf, hl]
  · have hlen : (s.portalBoxes3 axis portals).length = s.bodies.length + (s.teleportedBodies axis portals).length := by
      simp [portalBoxes3, endBoxes_length]
    have h3 : k - s.bodies.length < (s.teleportedBodies axis portals).length := by omega
    simp [imageOf, hl, List.getElem?_map, List.getElem?_eq_getElem h3] at h

/-! ## The loop over pairs -/

theorem sphereSphereIsActive_swap (x y : Vec3) (r r' : ℝ) : sphereSphereIsActive x y r r' = sphereSphereIsActive y x r' r := by
  unfold sphereSphereIsActive
  congr 1
  rw [squaredNorm3_eq, squaredNorm3_eq]
  simp only [Pi.sub_apply]
  refine propext ⟨fun h => ?_, fun h => ?_⟩ <;> nlinarith

theorem collideThroughPortal3_iff {u v : Image} {a b : SceneBody3} {ca cb : Vec3} (hu : IsImage3 axis portals s u a ca)
    (hv : IsImage3 axis portals s v b cb) :
    CollideThroughPortal3 axis portals s u v ↔ BothSpheres a b ∧ (u.via ≠ none ∨ v.via ≠ none) ∧
    (∃ z, z ∈ a.pointsSeen s.q1 u.body ca ∧ z ∈ b.pointsSeen s.q1 v.body cb) ∧
    ¬(u.via ≠ none ∧ v.via ≠ none ∧ ∃ z, z ∈ a.pointsAt s.q1 u.body ∧ z ∈ b.pointsAt s.q1 v.body) := by
  constructor
  · rintro ⟨a', b', ca', cb', hi', hj', h⟩
    obtain ⟨rfl, rfl⟩ := isImage3_unique hu hi'
    obtain ⟨rfl, rfl⟩ := isImage3_unique hv hj'
    exact h
  · intro h
    exact ⟨a, b, ca, cb, hu, hv, h⟩

theorem collideThroughPortal3_symm {u v : Image} (h : CollideThroughPortal3 axis portals s u v) : CollideThroughPortal3 axis portals s v u := by
  obtain ⟨a, b, ca, cb, h1, h2, h0, h3, ⟨z, h4, h4'⟩, h5⟩ := h
  refine ⟨b, a, cb, ca, h2, h1, h0.symm, h3.symm, ⟨z, h4', h4⟩, ?_⟩
  rintro ⟨h6, h7, z, h8, h9⟩
  exact h5 ⟨h7, h6, z, h9, h8⟩

theorem supportedImages3_symm {u v : Image} {a b : SceneBody3} (h : SupportedImages3 s u v a b) : SupportedImages3 s v u b a := by
  rcases h with h | ⟨h1, h2, h3, h4⟩
  · exact Or.inl h.symm
  · exact Or.inr ⟨h2, h1, supported3_symm h3, collide3_symm h4⟩

theorem mk_cases (u v : Image) : Step2.mkTeleportedCollision2 u v = ⟨u, v⟩ ∨ Step2.mkTeleportedCollision2 u v = ⟨v, u⟩ := by
  unfold Step2.mkTeleportedCollision2
  split
  · exact Or.inl rfl
  · exact Or.inr rfl

open Classical in
/-- Is there a collision of two images? -/
theorem classifyTeleported3_spec (hs : ∀ b ∈ s.bodies, b.Sound) {a b : SceneBody3} {ca cb : Vec3} {u v : Image} (hu : IsImage3 axis portals s u a ca)
    (hv : IsImage3 axis portals s v b cb) : classifyTeleported axis s portals u v = if a.fixed = true ∧ b.fixed = true then .ok none
      else if ¬BothSpheres a b then .exit
      else .ok (if ∃ z, z ∈ a.pointsSeen s.q1 u.body ca ∧ z ∈ b.pointsSeen s.q1 v.body cb then some (Step2.mkTeleportedCollision2 u v) else none) := by
  have hsa := hs a (List.mem_of_getElem? hu.1)
  have hsb := hs b (List.mem_of_getElem? hv.1)
  unfold classifyTeleported
  rw [hu.1, hv.1]
  dsimp only
  by_cases hf : a.fixed = true ∧ b.fixed = true
  · rw [if_pos (by simp [hf.1, hf.2]), if_pos hf]
  · rw [if_neg (by simpa using hf), if_neg hf]
    by_cases hc : BothSpheres a b
    · rw [if_neg (not_not.mpr hc)]
      obtain ⟨⟨ra, hra⟩, rb, hrb⟩ := hc
      obtain ⟨ga, ma, fa⟩ := a
      obtain ⟨gb, mb, fb⟩ := b
      dsimp only at hra hrb
      subst hra hrb
      have hm := balls_meet (x := ca) (y := cb) (show 0 < ra from hsa) (show 0 < rb from hsb)
      have hh : s.teleportedCollisionHappens axis portals (Step2.mkTeleportedCollision2 u v) = .ok (sphereSphereIsActive ca cb ra rb) := by
        rcases mk_cases u v with e | e <;> rw [e] <;> unfold teleportedCollisionHappens
        · simp only [hu.1, hv.1, imageCenter3_of_image hu, imageCenter3_of_image hv]
        · simp only [hu.1, hv.1, imageCenter3_of_image hu, imageCenter3_of_image hv]
          rw [sphereSphereIsActive_swap]
      rw [hh]
      simp only [Outcome.bind]
      by_cases hz : ∃ z, z ∈ ballSet3 ca ra ∧ z ∈ ballSet3 cb rb
      · rw [if_pos (hm.mp hz)]
        exact congrArg _ (if_pos hz).symm
      · rw [if_neg (fun h => hz (hm.mpr h))]
        exact congrArg _ (if_neg hz).symm
    · rw [if_pos hc]
      have hh : s.teleportedCollisionHappens axis portals (Step2.mkTeleportedCollision2 u v) = .exit := by
        rcases mk_cases u v with e | e <;> rw [e] <;> unfold teleportedCollisionHappens
        · simp only [hu.1, hv.1]
          split
          · rename_i h1 h2
            exact absurd ⟨⟨_, h1⟩, _, h2⟩ hc
          · rfl
        · simp only [hu.1, hv.1]
          split
          · rename_i h1 h2
            exact absurd ⟨⟨_, h2⟩, _, h1⟩ hc
          · rfl
      rw [hh]
      rfl

theorem collisionIsActive3_ok_or_exit {i j : Nat} {a b : SceneBody3} (ha : s.bodies[i]? = some a) (hb : s.bodies[j]? = some b) :
    (∃ d, s.collisionIsActive (i, j) = .ok d) ∨ s.collisionIsActive (i, j) = .exit := by
  unfold collisionIsActive
  dsimp only
  rw [ha, hb]
  dsimp only
  split
  · exact Or.inl ⟨_, rfl⟩
  · split
    · rcases ordered_ok_or_exit (s := s) (i := j) (j := i) (a := b) (b := a) with ⟨l, h⟩ | h
      · exact Or.inl ⟨_, by rw [h]; rfl⟩
      · exact Or.inr (by rw [h]; rfl)
    · rcases ordered_ok_or_exit (s := s) (i := i) (j := j) (a := a) (b := b) with ⟨l, h⟩ | h
      · exact Or.inl ⟨_, by rw [h]; rfl⟩
      · exact Or.inr (by rw [h]; rfl)

theorem collisionIsActive3_differs {i j : Nat} {a b : SceneBody3} (ha : s.bodies[i]? = some a) (hb : s.bodies[j]? = some b)
    (hf : ¬(a.fixed = true ∧ b.fixed = true)) (hk : ¬SameKind3 a b) : s.collisionIsActive (i, j) = .exit := by
  unfold collisionIsActive
  dsimp only
  rw [ha, hb]
  dsimp only
  rw [if_neg (by simpa using hf)]
  split
  · rw [ordered_exit3 fun h => hk (sameKind_symm h)]
    rfl
  · rw [ordered_exit3 hk]
    rfl

/-- two bodies that collide directly are found to do so -/
theorem collisionIsActive3_collide {i j : Nat} {a b : SceneBody3} (ha : s.bodies[i]? = some a) (hb : s.bodies[j]? = some b) (hsa : a.Sound) (hsb : b.Sound)
    (hf : ¬(a.fixed = true ∧ b.fixed = true)) (hk : Supported3 s i j a b) (hc : Collide3 s i j a b) : s.collisionIsActive (i, j) = .ok true := by
  have hbox := collide3_boxesMeet hsa hsb hc
  unfold collisionIsActive
  dsimp only
  rw [ha, hb]
  dsimp only
  rw [if_neg (by simpa using hf)]
  split
  · obtain ⟨l, h1, _, _, h3, _⟩ := ordered_spec3 (s := s) (i := j) (j := i) hsb hsa (supported3_symm hk) (boxesMeet_symm hbox)
    rw [h1]
    simp [Outcome.bind, h3 (collide3_symm hc)]
  · obtain ⟨l, h1, _, _, h3, _⟩ := ordered_spec3 (s := s) (i := i) (j := j) hsa hsb hk hbox
    rw [h1]
    simp [Outcome.bind, h3 hc]

open Classical in
theorem collisionIsActive3_spheres {i j : Nat} {a b : SceneBody3} (ha : s.bodies[i]? = some a) (hb : s.bodies[j]? = some b) (hsa : a.Sound) (hsb : b.Sound)
    (hf : ¬(a.fixed = true ∧ b.fixed = true)) (hk : BothSpheres a b) :
    s.collisionIsActive (i, j) = .ok (decide (∃ z, z ∈ a.pointsAt s.q1 i ∧ z ∈ b.pointsAt s.q1 j)) := by
  obtain ⟨⟨ra, hra⟩, rb, hrb⟩ := hk
  obtain ⟨ga, ma, fa⟩ := a
  obtain ⟨gb, mb, fb⟩ := b
  dsimp only at hra hrb
  subst hra hrb
  have hm := balls_meet (x := s.q1.x i) (y := s.q1.x j) (show 0 < ra from hsa) (show 0 < rb from hsb)
  have hd : decide (∃ z, z ∈ SceneBody3.pointsAt ⟨.sphere ra, ma, fa⟩ s.q1 i ∧ z ∈ SceneBody3.pointsAt ⟨.sphere rb, mb, fb⟩ s.q1 j) =
      sphereSphereIsActive (s.q1.x i) (s.q1.x j) ra rb := by
    rw [Bool.eq_iff_iff, decide_eq_true_eq]
    exact hm
  rw [hd]
  unfold collisionIsActive
  dsimp only
  rw [ha, hb]
  dsimp only
  rw [if_neg (by simpa using hf)]
  have key : ∀ {i j : Nat} {b : SceneBody3} {r t : ℝ}, (!(s.sphereSphereNarrowPhaseCollision i j b r t).isEmpty) =
      sphereSphereIsActive (s.q1.x i) (s.q1.x j) r t := by
    intro i j b r t
    unfold sphereSphereNarrowPhaseCollision
    dsimp only
    by_cases h : sphereSphereIsActive (s.q1.x i) (s.q1.x j) r t = true
    · rw [if_pos h, h]
      split <;> rfl
    · rw [if_neg h]
      simp only [Bool.not_eq_true] at h
      rw [h]
      rfl
  split
  · simp only [dispatchOrdered, Outcome.bind, key]
    rw [sphereSphereIsActive_swap]
  · simp only [dispatchOrdered, Outcome.bind, key]

open Classical in
/-- What is done with a pair of boxes of which at least one belongs to an image seen through a portal -/
theorem classify3_portal (hs : ∀ b ∈ s.bodies, b.Sound) {tele : List TeleportedBall} {p : Nat × Nat} {a b : SceneBody3} {ca cb : Vec3} {u v : Image}
    (hp1 : imageOf s.bodies.length tele p.1 = u) (hp2 : imageOf s.bodies.length tele p.2 = v) (hu : IsImage3 axis portals s u a ca)
    (hv : IsImage3 axis portals s v b cb) (hvia : u.via ≠ none ∨ v.via ≠ none) (hsup : ¬(a.fixed = true ∧ b.fixed = true) → SupportedImages3 s u v a b) :
    classify3 axis s portals tele p = .ok ([], if CollideThroughPortal3 axis portals s u v ∧ ¬(a.fixed = true ∧ b.fixed = true) then
      some (Step2.mkTeleportedCollision2 u v) else none) := by
  have hcol := collideThroughPortal3_iff hu hv
  have hsa := hs a (List.mem_of_getElem? hu.1)
  have hsb := hs b (List.mem_of_getElem? hv.1)
  have ht := classifyTeleported3_spec hs hu hv
  have hone : u.via = none ∨ v.via = none → classifyTeleported axis s portals u v =
      .ok (if CollideThroughPortal3 axis portals s u v ∧ ¬(a.fixed = true ∧ b.fixed = true) then some (Step2.mkTeleportedCollision2 u v) else none) := by
    intro h1
    rw [ht]
    by_cases hf : a.fixed = true ∧ b.fixed = true
    · rw [if_pos hf, if_neg (fun h => h.2 hf)]
    · rw [if_neg hf]
      rcases hsup hf with hc | ⟨h2, h3, _⟩
      · rw [if_neg (not_not.mpr hc)]
        congr 1
        refine if_congr ?_ rfl rfl
        rw [hcol]
        constructor
        · intro hz
          exact ⟨⟨hc, hvia, hz, fun h => h1.elim h.1 h.2.1⟩, hf⟩
        · intro h
          exact h.1.2.2.1
      · rcases h1 with h1 | h1
        · exact absurd h1 h2
        · exact absurd h1 h3
  unfold classify3
  simp only [hp1, hp2]
  cases hvu : u.via with
  | none =>
    cases hvv : v.via with
    | none => rcases hvia with h | h
              · exact absurd hvu h
              · exact absurd hvv h
    | some y =>
      simp only [hone (Or.inl hvu), Outcome.bind]
  | some x =>
    cases hvv : v.via with
    | none =>
      simp only [hone (Or.inr hvv), Outcome.bind]
    | some y =>
      simp only
      by_cases hf : a.fixed = true ∧ b.fixed = true
      · have hact : s.collisionIsActive (u.body, v.body) = .ok false := by
          unfold collisionIsActive
          simp only [hu.1, hv.1, hf.1, hf.2, Bool.and_self, if_true]
        rw [hact, ht, if_pos hf, if_neg (fun h => h.2 hf)]
        simp [Outcome.bind]
      · by_cases hc : BothSpheres a b
        · rw [collisionIsActive3_spheres hu.1 hv.1 hsa hsb hf hc, ht, if_neg hf, if_neg (not_not.mpr hc)]
          by_cases hd : ∃ z, z ∈ a.pointsAt s.q1 u.body ∧ z ∈ b.pointsAt s.q1 v.body
          · have hno : ¬(CollideThroughPortal3 axis portals s u v ∧ ¬(a.fixed = true ∧ b.fixed = true)) :=
              fun h => (hcol.mp h.1).2.2.2 ⟨by simp [hvu], by simp [hvv], hd⟩
            rw [if_neg hno, decide_eq_true hd]
            rfl
          · rw [decide_eq_false hd]
            simp only [Outcome.bind, Bool.false_eq_true, if_false]
            congr 2
            refine if_congr ?_ rfl rfl
            rw [hcol]
            constructor
            · intro hz
              exact ⟨⟨hc, hvia, hz, fun h => hd h.2.2⟩, hf⟩
            · intro h
              exact h.1.2.2.1
        · rcases hsup hf with h | ⟨_, _, h3, h4⟩
          · exact absurd h hc
          · rw [collisionIsActive3_collide hu.1 hv.1 hsa hsb hf h3 h4, if_neg (fun h => hc (hcol.mp h.1).1)]
            rfl

theorem classify3_portal_exit (hs : ∀ b ∈ s.bodies, b.Sound) {tele : List TeleportedBall} {p : Nat × Nat} {a b : SceneBody3} {ca cb : Vec3} {u v : Image}
    (hp1 : imageOf s.bodies.length tele p.1 = u) (hp2 : imageOf s.bodies.length tele p.2 = v) (hu : IsImage3 axis portals s u a ca)
    (hv : IsImage3 axis portals s v b cb) (hf : ¬(a.fixed = true ∧ b.fixed = true)) (hun : UnsupportedImages3 u v a b) :
    classify3 axis s portals tele p = .exit := by
  classical
  obtain ⟨hc, hvia, hwhy⟩ := hun
  have ht := classifyTeleported3_spec hs hu hv
  rw [if_neg hf, if_pos hc] at ht
  unfold classify3
  simp only [hp1, hp2]
  cases hvu : u.via with
  | none =>
    cases hvv : v.via with
    | none => rcases hvia with h | h
              · exact absurd hvu h
              · exact absurd hvv h
    | some y => simp only [ht, Outcome.bind]
  | some x =>
    cases hvv : v.via with
    | none => simp only [ht, Outcome.bind]
    | some y =>
      rcases hwhy with h | h | h
      · rw [hvu] at h; cases h
      · rw [hvv] at h; cases h
      · simp only [collisionIsActive3_differs hu.1 hv.1 hf h, Outcome.bind]

theorem classify3_ok_or_exit (hs : ∀ b ∈ s.bodies, b.Sound) {tele : List TeleportedBall} {p : Nat × Nat} {a b : SceneBody3} {ca cb : Vec3} {u v : Image}
    (hp1 : imageOf s.bodies.length tele p.1 = u) (hp2 : imageOf s.bodies.length tele p.2 = v) (hu : IsImage3 axis portals s u a ca)
    (hv : IsImage3 axis portals s v b cb) (hub : u.via = none → u.body = p.1) (hvb : v.via = none → v.body = p.2) :
    (∃ r, classify3 axis s portals tele p = .ok r) ∨ classify3 axis s portals tele p = .exit := by
  classical
  have ht : (∃ t, classifyTeleported axis s portals u v = .ok t) ∨ classifyTeleported axis s portals u v = .exit := by
    rw [classifyTeleported3_spec hs hu hv]
    split
    · exact Or.inl ⟨_, rfl⟩
    · split
      · exact Or.inr rfl
      · exact Or.inl ⟨_, rfl⟩
  have hbind : (∃ r, ((classifyTeleported axis s portals u v).bind fun t => .ok (([] : List Contact3), t)) = .ok r) ∨
      ((classifyTeleported axis s portals u v).bind fun t => .ok (([] : List Contact3), t)) = .exit := by
    rcases ht with ⟨t, h⟩ | h
    · rw [h]; exact Or.inl ⟨_, rfl⟩
    · rw [h]; exact Or.inr rfl
  unfold classify3
  simp only [hp1, hp2]
  cases hvu : u.via with
  | none =>
    cases hvv : v.via with
    | none =>
      have ha := hu.1
      have hb := hv.1
      rw [hub hvu] at ha
      rw [hvb hvv] at hb
      rcases dispatch_ok_or_exit ha hb with ⟨l, h⟩ | h
      · exact Or.inl ⟨_, by dsimp only; rw [show p = (p.1, p.2) from rfl, h]; rfl⟩
      · exact Or.inr (by dsimp only; rw [show p = (p.1, p.2) from rfl, h]; rfl)
    | some y => exact hbind
  | some x =>
    cases hvv : v.via with
    | none => exact hbind
    | some y =>
      rcases collisionIsActive3_ok_or_exit hu.1 hv.1 with ⟨d, h⟩ | h
      · simp only [h]
        cases d
        · exact hbind
        · exact Or.inl ⟨_, rfl⟩
      · simp only [h]
        exact Or.inr rfl

/-! ## The loops -/

theorem classifyAll3_total {tele : List TeleportedBall} : ∀ (pairs : List (Nat × Nat)) (acc : List Contact3 × List TeleportedCollision),
    (∀ p ∈ pairs, ∃ r, classify3 axis s portals tele p = .ok r) →
    ∃ out l, classifyAll axis s portals tele pairs acc = .ok out ∧ out.1 = acc.1 ++ l ∧
      Step2.collect (fun p => (classify3 axis s portals tele p).bind fun r => .ok r.1) pairs = .ok l
  | [], acc, _ => ⟨acc, [], rfl, by simp, rfl⟩
  | p :: ps, acc, h => by
    obtain ⟨r, hr⟩ := h p (by simp)
    obtain ⟨out, l, h1, h2, h3⟩ := classifyAll3_total ps (acc.1 ++ r.1, match r.2 with | none => acc.2 | some c => insertCollision c acc.2)
      fun p' hp' => h p' (by simp [hp'])
    refine ⟨out, r.1 ++ l, ?_, ?_, ?_⟩
    · simp only [classifyAll, hr, Outcome.bind]
      exact h1
    · rw [h2, List.append_assoc]
    · unfold Step2.collect
      rw [h3, hr]
      rfl

theorem classifyAll3_exit {tele : List TeleportedBall} : ∀ (pairs : List (Nat × Nat)) (acc : List Contact3 × List TeleportedCollision),
    (∀ p ∈ pairs, (∃ r, classify3 axis s portals tele p = .ok r) ∨ classify3 axis s portals tele p = .exit) →
    (∃ p ∈ pairs, classify3 axis s portals tele p = .exit) → classifyAll axis s portals tele pairs acc = .exit
  | [], _, _, h => by
    obtain ⟨_, h, _⟩ := h
    cases h
  | p :: ps, acc, h, hex => by
    unfold classifyAll
    rcases h p (by simp) with ⟨r, hr⟩ | hr
    · rw [hr]
      refine classifyAll3_exit ps _ (fun p' hp' => h p' (by simp [hp'])) ?_
      obtain ⟨p', hp', he⟩ := hex
      rcases List.mem_cons.mp hp' with rfl | hp'
      · rw [hr] at he; cases he
      · exact ⟨p', hp', he⟩
    · rw [hr]
      rfl

/-- The contact computed for a collision of two images of spheres that are not both scripted -/
theorem generateTeleported3 {c : TeleportedCollision} {a b : SceneBody3} (ha : s.bodies[c.fst.body]? = some a) (hb : s.bodies[c.snd.body]? = some b)
    (hf : ¬(a.fixed = true ∧ b.fixed = true)) (hc : BothSpheres a b) (hle : c.fst.body ≤ c.snd.body) :
    ∃ d : Contact3, s.generateTeleportedCollision axis portals c = .ok [d] ∧ d.pair = some (c.fst.body, c.snd.body) := by
  obtain ⟨⟨ra, hra⟩, rb, hrb⟩ := hc
  unfold generateTeleportedCollision
  rw [ha, hb]
  simp only [hra, hrb]
  have hmin : min c.fst.body c.snd.body = c.fst.body := min_eq_left hle
  have hmax : max c.fst.body c.snd.body = c.snd.body := max_eq_right hle
  cases hfa : a.fixed <;> cases hfb : b.fixed
  · exact ⟨_, rfl, by simp [Contact3.mkTeleported, Contact3.pair, hmin, hmax]⟩
  · exact ⟨_, rfl, by simp [Contact3.pair, hmin, hmax]⟩
  · exact ⟨_, rfl, by simp [Contact3.pair, hle]⟩
  · exact absurd ⟨hfa, hfb⟩ hf

end Step3

end Scisim
