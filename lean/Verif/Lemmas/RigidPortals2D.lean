import Verif.Spec.RigidPortals2D
import Verif.Lemmas.RigidContactLists2D
import Verif.Lemmas.BallContactLists
/-!
# The contact list of the 2D rigid body simulation with portals: helper lemmas
-/

namespace Scisim

namespace Step2

variable {junk : ℝ → ℤ} {portals : List (PlanarPortal ℝ)} {s : Step2}

/-! ## Boxes -/

theorem inBounds_iff {box : V2 ℝ × V2 ℝ} {S : Set (V2 ℝ)} (h1 : Contains2 box S) (h2 : Touches2 box S) (z : V2 ℝ) :
    InBounds2 S z ↔ box.1.x ≤ z.x ∧ z.x ≤ box.2.x ∧ box.1.y ≤ z.y ∧ z.y ≤ box.2.y := by
  constructor
  · rintro ⟨⟨a, ha, ha'⟩, ⟨b, hb, hb'⟩, ⟨c, hc, hc'⟩, d, hd, hd'⟩
    exact ⟨(h1 a ha).1.trans ha', hb'.trans (h1 b hb).2.1, (h1 c hc).2.2.1.trans hc', hd'.trans (h1 d hd).2.2.2⟩
  · obtain ⟨⟨a, ha, ha'⟩, ⟨b, hb, hb'⟩, ⟨c, hc, hc'⟩, d, hd, hd'⟩ := h2
    rintro ⟨k1, k2, k3, k4⟩
    exact ⟨⟨a, ha, ha'.trans_le k1⟩, ⟨b, hb, k2.trans hb'.ge⟩, ⟨c, hc, hc'.trans_le k3⟩, d, hd, k4.trans hd'.ge⟩

theorem solid_body {b : Body2} (hb : b.Solid) (c : V2 ℝ) (th : ℝ) : (⟨b.geometry, c, th⟩ : PosedBody2D).Solid := by
  obtain ⟨g, f⟩ := b
  cases g <;> exact hb

theorem bounds_iff {b : Body2} (hb : b.Solid) (c : V2 ℝ) (q : Dofs) (i : Nat) (z : V2 ℝ) :
    InBounds2 (b.pointsSeen q i c) z ↔ (toBox (b.geometry.aabb c (ang2 q i))).Contains ![z.x, z.y] := by
  obtain ⟨h1, h2⟩ := C44_body ⟨b.geometry, c, ang2 q i⟩ (solid_body hb _ _)
  rw [show b.pointsSeen q i c = PosedBody2D.points ⟨b.geometry, c, ang2 q i⟩ from rfl, inBounds_iff h1 h2]
  constructor
  · rintro ⟨k1, k2, k3, k4⟩ e
    fin_cases e
    · exact ⟨k1, k2⟩
    · exact ⟨k3, k4⟩
  · intro h
    exact ⟨(h 0).1, (h 0).2, (h 1).1, (h 1).2⟩

theorem boundsMeet_iff {a b : Body2} (ha : a.Solid) (hb : b.Solid) (ca cb : V2 ℝ) (q : Dofs) (i j : Nat) :
    BoundsMeet2 (a.pointsSeen q i ca) (b.pointsSeen q j cb) ↔
      Overlap (toBox (a.geometry.aabb ca (ang2 q i))) (toBox (b.geometry.aabb cb (ang2 q j))) := by
  constructor
  · rintro ⟨z, h1, h2⟩
    exact ⟨_, (bounds_iff ha _ _ _ _).mp h1, (bounds_iff hb _ _ _ _).mp h2⟩
  · rintro ⟨x, h1, h2⟩
    have hx : x = ![(⟨x 0, x 1⟩ : V2 ℝ).x, (⟨x 0, x 1⟩ : V2 ℝ).y] := by
      ext e
      fin_cases e <;> rfl
    rw [hx] at h1 h2
    exact ⟨⟨x 0, x 1⟩, (bounds_iff ha _ _ _ _).mpr h1, (bounds_iff hb _ _ _ _).mpr h2⟩

theorem pointsAt_eq (b : Body2) (q : Dofs) (i : Nat) : b.pointsAt q i = b.pointsSeen q i (seg2 q i) := rfl

theorem boundsMeet_of_common {S T : Set (V2 ℝ)} {z : V2 ℝ} (h1 : z ∈ S) (h2 : z ∈ T) : BoundsMeet2 S T :=
  ⟨z, ⟨⟨z, h1, le_rfl⟩, ⟨z, h1, le_rfl⟩, ⟨z, h1, le_rfl⟩, z, h1, le_rfl⟩, ⟨z, h2, le_rfl⟩, ⟨z, h2, le_rfl⟩, ⟨z, h2, le_rfl⟩, z, h2, le_rfl⟩

theorem boundsMeet_symm {S T : Set (V2 ℝ)} (h : BoundsMeet2 S T) : BoundsMeet2 T S := by
  obtain ⟨z, h1, h2⟩ := h
  exact ⟨z, h2, h1⟩

theorem toBox_aabb_valid {b : Body2} (hb : b.Solid) (c : V2 ℝ) (th : ℝ) : (toBox (b.geometry.aabb c th)).Valid := by
  have h := toBox_valid hb c th c th
  obtain ⟨g, f⟩ := b
  cases g with
  | circle r =>
    have hr : (0 : ℝ) < r := hb
    intro i
    fin_cases i <;> simp [toBox, Geometry2D.aabb, circleAABB] <;> linarith
  | box r => exact h

/-- a corner of the box is not in front of the plane exactly if some point of the box is not -/
theorem aabbInHalfPlane_iff {b : Body2} (hb : b.Solid) (q : Dofs) (i : Nat) (p : HalfPlane ℝ) :
    aabbInHalfPlane (b.geometry.aabb (seg2 q i) (ang2 q i)) p = true ↔ BoundsReach2 (b.pointsAt q i) p := by
  obtain ⟨h1, h2⟩ := C44_body ⟨b.geometry, seg2 q i, ang2 q i⟩ (solid_body hb _ _)
  have hv := toBox_aabb_valid hb (seg2 q i) (ang2 q i)
  generalize hbox : b.geometry.aabb (seg2 q i) (ang2 q i) = box at h1 h2 hv
  have hx : box.1.x < box.2.x := hv 0
  have hy : box.1.y < box.2.y := hv 1
  have hiff := inBounds_iff h1 h2
  unfold aabbInHalfPlane BoundsReach2
  rw [show b.pointsAt q i = PosedBody2D.points ⟨b.geometry, seg2 q i, ang2 q i⟩ from rfl]
  simp only [hiff, Bool.or_eq_true, decide_eq_true_eq, V2.dot, V2.sub_x, V2.sub_y, HalfPlane.height]
  constructor
  · rintro (((h | h) | h) | h)
    · exact ⟨⟨box.1.x, box.1.y⟩, ⟨le_rfl, hx.le, le_rfl, hy.le⟩, of_decide_eq_true h⟩
    · exact ⟨⟨box.1.x, box.2.y⟩, ⟨le_rfl, hx.le, hy.le, le_rfl⟩, of_decide_eq_true h⟩
    · exact ⟨⟨box.2.x, box.1.y⟩, ⟨hx.le, le_rfl, le_rfl, hy.le⟩, of_decide_eq_true h⟩
    · exact ⟨⟨box.2.x, box.2.y⟩, ⟨hx.le, le_rfl, hy.le, le_rfl⟩, of_decide_eq_true h⟩
  · rintro ⟨z, ⟨k1, k2, k3, k4⟩, h⟩
    rcases le_total 0 p.n.x with nx | nx <;> rcases le_total 0 p.n.y with ny | ny
    · exact Or.inl (Or.inl (Or.inl (decide_eq_true (by nlinarith [mul_le_mul_of_nonneg_left k1 nx, mul_le_mul_of_nonneg_left k3 ny]))))
    · exact Or.inl (Or.inl (Or.inr (decide_eq_true (by nlinarith [mul_le_mul_of_nonneg_left k1 nx, mul_le_mul_of_nonpos_left k4 ny]))))
    · exact Or.inl (Or.inr (decide_eq_true (by nlinarith [mul_le_mul_of_nonpos_left k2 nx, mul_le_mul_of_nonneg_left k3 ny])))
    · exact Or.inr (decide_eq_true (by nlinarith [mul_le_mul_of_nonpos_left k2 nx, mul_le_mul_of_nonpos_left k4 ny]))

theorem touches_iff {b : Body2} (hb : b.Solid) (p : PlanarPortal ℝ) (i : Nat) (plane : Bool) :
    aabbTouchesPortal p (s.endBox b i) = some plane ↔
      (plane = false ∧ BoundsReach2 (b.pointsAt s.q1 i) p.planeA) ∨
      (plane = true ∧ ¬BoundsReach2 (b.pointsAt s.q1 i) p.planeA ∧ BoundsReach2 (b.pointsAt s.q1 i) p.planeB) := by
  unfold aabbTouchesPortal endBox
  have hA := aabbInHalfPlane_iff hb s.q1 i p.planeA
  have hB := aabbInHalfPlane_iff hb s.q1 i p.planeB
  by_cases h1 : BoundsReach2 (b.pointsAt s.q1 i) p.planeA
  · rw [if_pos (hA.mpr h1)]
    cases plane <;> simp [h1]
  · rw [if_neg (fun h => h1 (hA.mp h))]
    by_cases h2 : BoundsReach2 (b.pointsAt s.q1 i) p.planeB
    · rw [if_pos (hB.mpr h2)]
      cases plane <;> simp [h1, h2]
    · rw [if_neg (fun h => h2 (hB.mp h))]
      simp [h1, h2]

/-! ## Images -/

theorem mem_teleportedBodies {e : TeleportedBall × Box 2 ℝ} : e ∈ s.teleportedBodies junk portals ↔
    ∃ p b, portals[e.1.portal]? = some p ∧ s.bodies[e.1.body]? = some b ∧ aabbTouchesPortal p (s.endBox b e.1.body) = some e.1.plane ∧
      e.2 = toBox (b.geometry.aabb (teleportPoint junk p e.1.plane (seg2 s.q1 e.1.body)) (ang2 s.q1 e.1.body)) := by
  unfold teleportedBodies
  simp only [List.mem_flatMap, List.mem_filterMap]
  constructor
  · rintro ⟨⟨p, k⟩, hp, ⟨b, i⟩, hb, h⟩
    rw [List.mk_mem_zipIdx_iff_getElem?] at hp hb
    obtain ⟨pl, hpl, rfl⟩ := Option.map_eq_some_iff.mp h
    exact ⟨p, b, hp, hb, hpl, rfl⟩
  · rintro ⟨p, b, hp, hb, h, he⟩
    refine ⟨(p, e.1.portal), by rw [List.mk_mem_zipIdx_iff_getElem?]; exact hp, (b, e.1.body), by rw [List.mk_mem_zipIdx_iff_getElem?]; exact hb, ?_⟩
    dsimp only
    rw [h, Option.map_some]
    obtain ⟨⟨i, k, pl⟩, bx⟩ := e
    dsimp only at he
    rw [he]

theorem portalBoxes_get {k : Nat} (hk : k < s.bodies.length) : (s.portalBoxes junk portals)[k]? = (s.bodies[k]?).map fun b => toBox (s.endBox b k) := by
  unfold portalBoxes
  rw [List.getElem?_append_left (by simpa using hk), List.getElem?_map, List.getElem?_zipIdx]
  cases s.bodies[k]? <;> simp

/-- every box is the box around the image its index stands for -/
theorem image_of_box2 (hs : ∀ b ∈ s.bodies, b.Solid) {k : Nat} {box : Box 2 ℝ} (hk : (s.portalBoxes junk portals)[k]? = some box) :
    ∃ b c, IsImage2 junk portals s (imageOf s.bodies.length ((s.teleportedBodies junk portals).map (·.1)) k) b c ∧
      box = toBox (b.geometry.aabb c (ang2 s.q1 (imageOf s.bodies.length ((s.teleportedBodies junk portals).map (·.1)) k).body)) := by
  by_cases hl : k < s.bodies.length
  · rw [portalBoxes_get hl] at hk
    obtain ⟨b, hb, rfl⟩ := Option.map_eq_some_iff.mp hk
    refine ⟨b, seg2 s.q1 k, ?_, ?_⟩
    · have hi : imageOf s.bodies.length ((s.teleportedBodies junk portals).map (·.1)) k = ⟨k, none⟩ := by simp [imageOf, hl]
      rw [hi]
      exact ⟨hb, rfl⟩
    · simp [imageOf, hl, endBox]
  · unfold portalBoxes at hk
    rw [List.getElem?_append_right (by simpa using hl)] at hk
    simp only [List.length_map, List.length_zipIdx, List.getElem?_map] at hk
    obtain ⟨e, he, rfl⟩ := Option.map_eq_some_iff.mp hk
    obtain ⟨p, b, hp, hb, ht, hbox⟩ := mem_teleportedBodies.mp (List.mem_of_getElem? he)
    have himg : imageOf s.bodies.length ((s.teleportedBodies junk portals).map (·.1)) k = ⟨e.1.body, some (e.1.portal, e.1.plane)⟩ := by
      simp [imageOf, hl, List.getElem?_map, he]
    rw [himg]
    refine ⟨b, teleportPoint junk p e.1.plane (seg2 s.q1 e.1.body), ⟨hb, p, hp, ?_⟩, hbox⟩
    rcases (touches_iff (hs b (List.mem_of_getElem? hb)) p e.1.body e.1.plane).mp ht with ⟨h1, h2⟩ | ⟨h1, h2, h3⟩
    · exact Or.inl ⟨h1, h2, by rw [h1]; rfl⟩
    · exact Or.inr ⟨h1, h2, h3, by rw [h1]; rfl⟩

/-- every image has a box -/
theorem box_of_image2 (hs : ∀ b ∈ s.bodies, b.Solid) {u : Image} {b : Body2} {c : V2 ℝ} (hu : IsImage2 junk portals s u b c) :
    ∃ k, imageOf s.bodies.length ((s.teleportedBodies junk portals).map (·.1)) k = u ∧
      (s.portalBoxes junk portals)[k]? = some (toBox (b.geometry.aabb c (ang2 s.q1 u.body))) := by
  obtain ⟨body, via⟩ := u
  obtain ⟨hb, hv⟩ := hu
  cases via with
  | none =>
    dsimp only at hb hv
    have hl := (List.getElem?_eq_some_iff.mp hb).1
    refine ⟨body, by simp [imageOf, hl], ?_⟩
    rw [portalBoxes_get hl, hb, hv]
    rfl
  | some v =>
    obtain ⟨m, plane⟩ := v
    dsimp only at hb hv
    obtain ⟨p, hp, hv⟩ := hv
    have ht : aabbTouchesPortal p (s.endBox b body) = some plane := by
      rw [touches_iff (hs b (List.mem_of_getElem? hb))]
      rcases hv with ⟨h1, h2, _⟩ | ⟨h1, h2, h3, _⟩
      · exact Or.inl ⟨h1, h2⟩
      · exact Or.inr ⟨h1, h2, h3⟩
    have hc : c = teleportPoint junk p plane (seg2 s.q1 body) := by
      rcases hv with ⟨rfl, _, h⟩ | ⟨rfl, _, _, h⟩ <;> rw [h] <;> rfl
    have hmem : ((⟨body, m, plane⟩ : TeleportedBall), toBox (b.geometry.aabb c (ang2 s.q1 body))) ∈ s.teleportedBodies junk portals :=
      mem_teleportedBodies.mpr ⟨p, b, hp, hb, ht, by rw [hc]⟩
    obtain ⟨k, hk⟩ := List.mem_iff_getElem?.mp hmem
    refine ⟨s.bodies.length + k, ?_, ?_⟩
    · simp [imageOf, hk]
    · unfold portalBoxes
      rw [List.getElem?_append_right (by simp)]
      simp [hk]

theorem isImage2_unique {u : Image} {b b' : Body2} {c c' : V2 ℝ} (h : IsImage2 junk portals s u b c) (h' : IsImage2 junk portals s u b' c') :
    b = b' ∧ c = c' := by
  obtain ⟨h1, h2⟩ := h
  obtain ⟨h1', h2'⟩ := h'
  rw [h1] at h1'
  cases h1'
  refine ⟨rfl, ?_⟩
  cases hv : u.via with
  | none => rw [hv] at h2 h2'; exact h2.trans h2'.symm
  | some v =>
    rw [hv] at h2 h2'
    obtain ⟨p, hp, h2⟩ := h2
    obtain ⟨p', hp', h2'⟩ := h2'
    rw [hp] at hp'
    cases hp'
    rcases h2 with ⟨e, _, h2⟩ | ⟨e, _, _, h2⟩ <;> rcases h2' with ⟨e', _, h2'⟩ | ⟨e', _, _, h2'⟩
    · exact h2.trans h2'.symm
    · rw [e] at e'; cases e'
    · rw [e] at e'; cases e'
    · exact h2.trans h2'.symm

theorem imageCenter2_of_image {u : Image} {b : Body2} {c : V2 ℝ} (h : IsImage2 junk portals s u b c) : imageCenter2 junk portals s.q1 u = c := by
  obtain ⟨_, h⟩ := h
  unfold imageCenter2
  cases hv : u.via with
  | none => rw [hv] at h; exact h.symm
  | some v =>
    rw [hv] at h
    obtain ⟨p, hp, h⟩ := h
    simp only [hp]
    rcases h with ⟨e, _, h⟩ | ⟨e, _, _, h⟩ <;> simp [e, h, teleportPoint, seg2]

/-- Different boxes belong to different images. -/
theorem imageOf_inj {k l : Nat} (hk : k < (s.portalBoxes junk portals).length) (hl : l < (s.portalBoxes junk portals).length)
    (h : imageOf s.bodies.length ((s.teleportedBodies junk portals).map (·.1)) k = imageOf s.bodies.length ((s.teleportedBodies junk portals).map (·.1)) l) :
    k = l := by
  have hnd : ((s.teleportedBodies junk portals).map fun e => (e.1.portal, e.1.body)).Nodup := by
    have hinner : ∀ (p : PlanarPortal ℝ) (k : Nat), ((s.bodies.zipIdx.filterMap fun (x : Body2 × Nat) =>
        (aabbTouchesPortal p (s.endBox x.1 x.2)).map fun plane =>
          (((⟨x.2, k, plane⟩ : TeleportedBall), toBox (x.1.geometry.aabb (teleportPoint junk p plane (seg2 s.q1 x.2)) (ang2 s.q1 x.2))) :
            TeleportedBall × Box 2 ℝ)).map fun e => (e.1.portal, e.1.body)).Nodup := by
      intro p k
      rw [List.map_filterMap]
      refine filterMap_zipIdx_nodup _ _ (fun e => e.2) ?_
      intro a i b h
      obtain ⟨e, he, rfl⟩ := Option.map_eq_some_iff.mp h
      obtain ⟨pl, _, rfl⟩ := Option.map_eq_some_iff.mp he
      rfl
    unfold teleportedBodies
    rw [List.map_flatMap]
    refine flatMap_zipIdx_nodup _ _ (fun e => e.1) (fun x => hinner x.1 x.2) ?_
    intro a i b hb
    obtain ⟨e, he, rfl⟩ := List.mem_map.mp hb
    obtain ⟨x, _, he⟩ := List.mem_filterMap.mp he
    obtain ⟨pl, _, rfl⟩ := Option.map_eq_some_iff.mp he
    rfl
  have hlen : (s.portalBoxes junk portals).length = s.bodies.length + (s.teleportedBodies junk portals).length := by
    simp [portalBoxes]
  rw [hlen] at hk hl
  have key : ∀ {k : Nat}, ¬k < s.bodies.length → k < s.bodies.length + (s.teleportedBodies junk portals).length →
      ∃ e, (s.teleportedBodies junk portals)[k - s.bodies.length]? = some e ∧
        imageOf s.bodies.length ((s.teleportedBodies junk portals).map (·.1)) k = ⟨e.1.body, some (e.1.portal, e.1.plane)⟩ := by
    intro k h1 h2
    have h3 : k - s.bodies.length < (s.teleportedBodies junk portals).length := by omega
    refine ⟨_, List.getElem?_eq_getElem h3, ?_⟩
    simp [imageOf, h1, List.getElem?_map, List.getElem?_eq_getElem h3]
  by_cases h1 : k < s.bodies.length
  · by_cases h2 : l < s.bodies.length
    · simpa [imageOf, h1, h2] using h
    · obtain ⟨e, _, he⟩ := key h2 hl
      rw [he] at h
      simp [imageOf, h1] at h
  · obtain ⟨e, he, hi⟩ := key h1 hk
    by_cases h2 : l < s.bodies.length
    · rw [hi] at h
      simp [imageOf, h2] at h
    · obtain ⟨e', he', hi'⟩ := key h2 hl
      rw [hi, hi'] at h
      simp only [Image.mk.injEq, Option.some.injEq, Prod.mk.injEq] at h
      have hg : ((s.teleportedBodies junk portals).map fun e => (e.1.portal, e.1.body))[k - s.bodies.length]? =
          ((s.teleportedBodies junk portals).map fun e => (e.1.portal, e.1.body))[l - s.bodies.length]? := by
        rw [List.getElem?_map, List.getElem?_map, he, he']
        simp [h]
      have := (List.getElem?_inj (by simp; omega) hnd).mp hg
      omega

/-! ## The loop over pairs -/

theorem disc_common {x y : V2 ℝ} {r r' : ℝ} (hr : 0 < r) (hr' : 0 < r') :
    (∃ z, z ∈ discSet x r ∧ z ∈ discSet y r') ↔ ballBallIsActive x y r r' = true := by
  rw [ballBallIsActive_iff hr.le hr'.le]
  exact Iff.rfl

theorem ballBallIsActive_swap (x y : V2 ℝ) (r r' : ℝ) : ballBallIsActive x y r r' = ballBallIsActive y x r r' := by
  unfold ballBallIsActive
  congr 1
  simp only [V2.normSq, V2.sub_x, V2.sub_y]
  refine propext ⟨fun h => ?_, fun h => ?_⟩ <;> nlinarith

theorem collideThroughPortal2_iff {u v : Image} {a b : Body2} {ca cb : V2 ℝ} (hu : IsImage2 junk portals s u a ca) (hv : IsImage2 junk portals s v b cb) :
    CollideThroughPortal2 junk portals s u v ↔ (u.via ≠ none ∨ v.via ≠ none) ∧
    (∃ z, z ∈ a.pointsSeen s.q1 u.body ca ∧ z ∈ b.pointsSeen s.q1 v.body cb) ∧
    ¬(u.via ≠ none ∧ v.via ≠ none ∧ ∃ z, z ∈ a.pointsAt s.q1 u.body ∧ z ∈ b.pointsAt s.q1 v.body) := by
  constructor
  · rintro ⟨a', b', ca', cb', hi', hj', h⟩
    obtain ⟨rfl, rfl⟩ := isImage2_unique hu hi'
    obtain ⟨rfl, rfl⟩ := isImage2_unique hv hj'
    exact h
  · intro h
    exact ⟨a, b, ca, cb, hu, hv, h⟩

theorem collideThroughPortal2_symm {u v : Image} (h : CollideThroughPortal2 junk portals s u v) : CollideThroughPortal2 junk portals s v u := by
  obtain ⟨a, b, ca, cb, h1, h2, h3, ⟨z, h4, h4'⟩, h5⟩ := h
  refine ⟨b, a, cb, ca, h2, h1, h3.symm, ⟨z, h4', h4⟩, ?_⟩
  rintro ⟨h6, h7, z, h8, h9⟩
  exact h5 ⟨h7, h6, z, h9, h8⟩

open Classical in
/-- What is done with a pair of boxes of which at least one belongs to an image seen through a portal -/
theorem classify2_portal (hs : ∀ b ∈ s.bodies, b.Solid) {tele : List TeleportedBall} {p : Nat × Nat} {a b : Body2} {ca cb : V2 ℝ} {u v : Image}
    (hp1 : imageOf s.bodies.length tele p.1 = u) (hp2 : imageOf s.bodies.length tele p.2 = v) (hu : IsImage2 junk portals s u a ca)
    (hv : IsImage2 junk portals s v b cb) (hvia : u.via ≠ none ∨ v.via ≠ none) :
    classify2 junk s portals tele p = if ¬BothCircles a b ∧ (¬(a.fixed = true ∧ b.fixed = true) ∨ (u.via ≠ none ∧ v.via ≠ none)) then .exit
      else .ok ([], if CollideThroughPortal2 junk portals s u v ∧ ¬(a.fixed = true ∧ b.fixed = true) then some (mkTeleportedCollision2 u v) else none) := by
  have hcol := collideThroughPortal2_iff hu hv
  have hsa := hs a (List.mem_of_getElem? hu.1)
  have hsb := hs b (List.mem_of_getElem? hv.1)
  have ht : classifyTeleported junk s portals u v = if a.fixed = true ∧ b.fixed = true then .ok none
      else if ¬BothCircles a b then .exit
      else .ok (if ∃ z, z ∈ a.pointsSeen s.q1 u.body ca ∧ z ∈ b.pointsSeen s.q1 v.body cb then some (mkTeleportedCollision2 u v) else none) := by
    unfold classifyTeleported
    rw [hu.1, hv.1]
    dsimp only
    by_cases hf : a.fixed = true ∧ b.fixed = true
    · rw [if_pos (by simp [hf.1, hf.2]), if_pos hf]
    · rw [if_neg (by simpa using hf), if_neg hf]
      obtain ⟨ga, fa⟩ := a
      obtain ⟨gb, fb⟩ := b
      have hsame : ballBallIsActive (imageCenter2 junk portals s.q1 (mkTeleportedCollision2 u v).fst)
          (imageCenter2 junk portals s.q1 (mkTeleportedCollision2 u v).snd) = fun r r' => ballBallIsActive ca cb r r' := by
        funext r r'
        unfold mkTeleportedCollision2
        split
        · simp only [imageCenter2_of_image hu, imageCenter2_of_image hv]
        · simp only [imageCenter2_of_image hu, imageCenter2_of_image hv]
          exact ballBallIsActive_swap _ _ _ _
      cases ga with
      | box ra =>
        rw [if_pos (by rintro ⟨⟨r, hr⟩, _⟩; cases hr)]
        rfl
      | circle ra =>
        cases gb with
        | box rb =>
          rw [if_pos (by rintro ⟨_, ⟨r, hr⟩⟩; cases hr)]
          rfl
        | circle rb =>
          rw [if_neg (by rw [not_not]; exact ⟨⟨ra, rfl⟩, rb, rfl⟩)]
          have hm := disc_common (x := ca) (y := cb) (show 0 < ra from hsa) (show 0 < rb from hsb)
          simp only [collisionIsActive, hsame, Outcome.bind]
          by_cases hz : ∃ z, z ∈ discSet ca ra ∧ z ∈ discSet cb rb
          · rw [if_pos (hm.mp hz)]
            exact congrArg _ (if_pos hz).symm
          · rw [if_neg (fun h => hz (hm.mpr h))]
            exact congrArg _ (if_neg hz).symm
  unfold classify2
  simp only [hp1, hp2]
  cases hvu : u.via with
  | none =>
    cases hvv : v.via with
    | none => rcases hvia with h | h
              · exact absurd hvu h
              · exact absurd hvv h
    | some y =>
      simp only [ht]
      rw [hcol, hvu, hvv]
      by_cases hf : a.fixed = true ∧ b.fixed = true
      · simp [hf, Outcome.bind]
      · by_cases hc : BothCircles a b
        · simp [hf, hc, Outcome.bind]
        · simp [hf, hc, Outcome.bind]
  | some x =>
    cases hvv : v.via with
    | none =>
      simp only [ht]
      rw [hcol, hvu, hvv]
      by_cases hf : a.fixed = true ∧ b.fixed = true
      · simp [hf, Outcome.bind]
      · by_cases hc : BothCircles a b
        · simp [hf, hc, Outcome.bind]
        · simp [hf, hc, Outcome.bind]
    | some y =>
      simp only [hu.1, hv.1]
      rw [hcol, hvu, hvv]
      by_cases hc : BothCircles a b
      · obtain ⟨⟨ra, hra⟩, rb, hrb⟩ := id hc
        obtain ⟨ga, fa⟩ := a
        obtain ⟨gb, fb⟩ := b
        dsimp only at hra hrb
        subst hra hrb
        have hm := disc_common (x := seg2 s.q1 u.body) (y := seg2 s.q1 v.body) (show 0 < ra from hsa) (show 0 < rb from hsb)
        have hm' : (∃ z, z ∈ Body2.pointsAt ⟨.circle ra, fa⟩ s.q1 u.body ∧ z ∈ Body2.pointsAt ⟨.circle rb, fb⟩ s.q1 v.body) ↔
          ballBallIsActive (seg2 s.q1 u.body) (seg2 s.q1 v.body) ra rb = true := hm
        rw [hm']
        simp only [collisionIsActive, Outcome.bind, ht]
        by_cases hd : ballBallIsActive (seg2 s.q1 u.body) (seg2 s.q1 v.body) ra rb = true
        · simp [hd, hc]
        · by_cases hf : fa = true ∧ fb = true
          · simp [hd, hf, BothCircles]
          · simp [hd, hf, hc]
      · have hex : collisionIsActive (seg2 s.q1 u.body) a.geometry (seg2 s.q1 v.body) b.geometry = .exit := by
          unfold collisionIsActive
          split
          · rename_i h1 h2
            exact absurd ⟨⟨_, h1⟩, _, h2⟩ hc
          · rfl
        rw [hex]
        simp [Outcome.bind, hc]

/-! ## The loops -/

theorem direct_of_portalPair_none {c : Contact2} (h : c.portalPair = none) : c.directPair = c.pair := by
  cases c <;> first | rfl | (simp [Contact2.portalPair] at h)

theorem directPair_of_portal {c : Contact2} {p : Nat × Nat} (h : c.portalPair = some p) : c.directPair = none := by
  cases c <;> first | rfl | (simp [Contact2.portalPair] at h)

theorem boxCircle_notPortal {ic ib : Nat} {c b : Body2} {r : ℝ} {rb : V2 ℝ} {l : List Contact2}
    (h : s.boxCircleNarrowPhaseCollision ic ib c b r rb = .ok l) {d : Contact2} (hd : d ∈ l) : d.portalPair = none := by
  unfold boxCircleNarrowPhaseCollision at h
  split at h
  · cases h
  · split at h
    · cases h; cases hd
    · split at h
      · split at h <;> cases h <;> rw [List.mem_singleton] at hd <;> subst hd <;> rfl
      · cases h
        rw [List.mem_singleton] at hd
        subst hd
        rfl

theorem ordered_notPortal {i j : Nat} {a b : Body2} {l : List Contact2} (h : s.dispatchOrdered i j a b = .ok l) {d : Contact2} (hd : d ∈ l) :
    d.portalPair = none := by
  unfold dispatchOrdered at h
  split at h
  · cases h
    unfold circleCircleNarrowPhaseCollision at hd
    dsimp only at hd
    split at hd
    · simp at hd
    · split at hd <;> rw [List.mem_singleton] at hd <;> subst hd <;> rfl
  · exact boxCircle_notPortal h hd
  · exact boxCircle_notPortal h hd
  · unfold boxBoxNarrowPhaseCollision at h
    split at h
    · cases h
    · obtain ⟨r, _, h⟩ := Outcome.bind_ok_iff.mp h
      cases h
      obtain ⟨p, _, rfl⟩ := List.mem_map.mp hd
      rfl

theorem dispatch_notPortal {p : Nat × Nat} {l : List Contact2} (h : s.dispatchNarrowPhaseCollision p = .ok l) {d : Contact2} (hd : d ∈ l) :
    d.portalPair = none := by
  unfold dispatchNarrowPhaseCollision at h
  split at h
  · split at h
    · cases h; cases hd
    · split at h <;> exact ordered_notPortal h hd
  · cases h

theorem planes_notPortal {c : Contact2} (hc : c ∈ s.computeBodyPlaneActiveSetAllPairs) : c.portalPair = none ∧ c.directPair = none := by
  unfold computeBodyPlaneActiveSetAllPairs at hc
  simp only [List.mem_flatMap] at hc
  obtain ⟨⟨p, k⟩, _, ⟨b, i⟩, _, hc⟩ := hc
  unfold bodyPlane at hc
  split at hc
  · cases hc
  · split at hc
    · split at hc
      · rw [List.mem_singleton] at hc
        subst hc
        exact ⟨rfl, rfl⟩
      · cases hc
    · rw [List.mem_filterMap] at hc
      obtain ⟨e, _, hc⟩ := hc
      dsimp only at hc
      split at hc <;> cases hc
      exact ⟨rfl, rfl⟩

theorem classifyAll_total {tele : List TeleportedBall} : ∀ (pairs : List (Nat × Nat)) (acc : List Contact2 × List TeleportedCollision),
    (∀ p ∈ pairs, ∃ r, classify2 junk s portals tele p = .ok r) →
    ∃ out l, classifyAll junk s portals tele pairs acc = .ok out ∧ out.1 = acc.1 ++ l ∧
      collect (fun p => (classify2 junk s portals tele p).bind fun r => .ok r.1) pairs = .ok l
  | [], acc, _ => ⟨acc, [], rfl, by simp, rfl⟩
  | p :: ps, acc, h => by
    obtain ⟨r, hr⟩ := h p (by simp)
    obtain ⟨out, l, h1, h2, h3⟩ := classifyAll_total ps (acc.1 ++ r.1, match r.2 with | none => acc.2 | some c => insertCollision c acc.2)
      fun p' hp' => h p' (by simp [hp'])
    refine ⟨out, r.1 ++ l, ?_, ?_, ?_⟩
    · simp only [classifyAll, hr, Outcome.bind]
      exact h1
    · rw [h2, List.append_assoc]
    · unfold collect
      rw [h3, hr]
      rfl

theorem classifyAll_exit {tele : List TeleportedBall} : ∀ (pairs : List (Nat × Nat)) (acc : List Contact2 × List TeleportedCollision),
    (∀ p ∈ pairs, (∃ r, classify2 junk s portals tele p = .ok r) ∨ classify2 junk s portals tele p = .exit) →
    (∃ p ∈ pairs, classify2 junk s portals tele p = .exit) → classifyAll junk s portals tele pairs acc = .exit
  | [], _, _, h => by
    obtain ⟨_, h, _⟩ := h
    cases h
  | p :: ps, acc, h, hex => by
    unfold classifyAll
    rcases h p (by simp) with ⟨r, hr⟩ | hr
    · rw [hr]
      refine classifyAll_exit ps _ (fun p' hp' => h p' (by simp [hp'])) ?_
      obtain ⟨p', hp', he⟩ := hex
      rcases List.mem_cons.mp hp' with rfl | hp'
      · rw [hr] at he; cases he
      · exact ⟨p', hp', he⟩
    · rw [hr]
      rfl

/-- The contact computed for a collision of two images that are both not scripted -/
theorem dispatchTeleported_free {c : TeleportedCollision} {a b : Body2} {ra rb : ℝ} (hs : ∀ b ∈ s.bodies, b.Solid)
    (hcol : CollideThroughPortal2 junk portals s c.fst c.snd) (ha : s.bodies[c.fst.body]? = some a) (hb : s.bodies[c.snd.body]? = some b)
    (hfa : a.fixed = false) (hfb : b.fixed = false) (hra : a.geometry = .circle ra) (hrb : b.geometry = .circle rb) :
    ∃ d : Contact2, s.dispatchTeleported junk portals c = .ok [d] ∧ d.portalPair = some (c.fst.body, c.snd.body) := by
  obtain ⟨a', b', ca, cb, hu, hv, _, hz, _⟩ := hcol
  have h1 := hu.1
  have h2 := hv.1
  rw [ha] at h1
  rw [hb] at h2
  cases h1
  cases h2
  have hsa := hs a (List.mem_of_getElem? ha)
  have hsb := hs b (List.mem_of_getElem? hb)
  obtain ⟨ga, fa⟩ := a
  obtain ⟨gb, fb⟩ := b
  dsimp only at hra hrb hfa hfb
  subst hra hrb hfa hfb
  have hact := (disc_common (x := ca) (y := cb) (show 0 < ra from hsa) (show 0 < rb from hsb)).mp hz
  unfold dispatchTeleported
  rw [ha, hb]
  simp only [Bool.or_self, Bool.false_eq_true, if_false, imageCenter2_of_image hu, imageCenter2_of_image hv, hact, if_true]
  cases h3 : c.snd.slides portals with
  | some p => exact ⟨_, rfl, rfl⟩
  | none =>
    cases h4 : c.fst.slides portals with
    | some p => exact ⟨_, rfl, rfl⟩
    | none => exact ⟨_, rfl, rfl⟩

theorem dispatchTeleported_exit {c : TeleportedCollision} {a b : Body2} (ha : s.bodies[c.fst.body]? = some a) (hb : s.bodies[c.snd.body]? = some b)
    (hf : a.fixed ≠ b.fixed) : s.dispatchTeleported junk portals c = .exit := by
  unfold dispatchTeleported
  rw [ha, hb]
  dsimp only
  rw [if_pos]
  cases h1 : a.fixed <;> cases h2 : b.fixed <;> simp_all

theorem collect_map {α β : Type} (f : α → Outcome (List β)) (g : α → β) : ∀ l : List α, (∀ a ∈ l, f a = .ok [g a]) → collect f l = .ok (l.map g)
  | [], _ => rfl
  | a :: l, h => by
    simp [collect, h a (by simp), collect_map f g l (fun a' ha' => h a' (by simp [ha'])), Outcome.bind]

end Step2

end Scisim
