import Verif.Lemmas.Statistics
import Verif.Props.BallContacts
import Verif.Props.RigidContactList2D
import Verif.Props.RigidContactList3D
/-!
# C62: collision statistics
-/

namespace Scisim

open Matrix Step3 MeasureTheory

variable {axis : Vec3 → Vec3 → Vec3} {s : Step3} {portals : List Portal3} {cs : List Contact3} {c : Contact3}

/-! ## Totals by name -/

/-- **C62**, totals of the 3D simulation. The statistics succeed exactly if the contact computation does. A name has an entry exactly if a contact has that
name, and then its entries are the number of the contacts with that name and the sums of their depths and of their volumes. -/
theorem C62_totals (bodies : List SceneBody3) (planes : List Plane3) (cylinders : List Cylinder3) (portals : List Portal3) (q : Pose3) :
    (∀ cs, computeActiveSet3 axis ⟨bodies, planes, cylinders, q, q⟩ portals = .ok cs →
      ∃ st, computeNumberOfCollisions3 axis bodies planes cylinders portals q = .ok st ∧
        st.Of Contact3.name (fun c => c.penetrationDepth q) (fun c => c.overlapVolume q) cs) ∧
    ∀ st, computeNumberOfCollisions3 axis bodies planes cylinders portals q = .ok st →
      ∃ cs, computeActiveSet3 axis ⟨bodies, planes, cylinders, q, q⟩ portals = .ok cs := by
  unfold computeNumberOfCollisions3
  refine ⟨fun cs h => ?_, fun st h => ?_⟩
  · rw [h]
    exact ⟨_, rfl, stats_of _ _ _ cs⟩
  · obtain ⟨cs, h, _⟩ := Outcome.bind_ok_iff.mp h
    exact ⟨cs, h⟩

/-- **C62**, totals of the ball simulation -/
theorem C62_ball_totals (junk : ℝ → ℤ) (bs : List BallAt) (planes : List (HalfPlane ℝ)) (drums : List Drum) (portals : List (PlanarPortal ℝ)) :
    (∀ cs, computeActiveSet junk (bs.map BallAt.still) planes drums portals = .ok cs →
      ∃ st, computeNumberOfCollisionsBall junk bs planes drums portals = .ok st ∧
        st.Of Contact.name (fun c => c.penetrationDepth bs planes) (fun _ => none) cs) ∧
    ∀ st, computeNumberOfCollisionsBall junk bs planes drums portals = .ok st →
      ∃ cs, computeActiveSet junk (bs.map BallAt.still) planes drums portals = .ok cs := by
  unfold computeNumberOfCollisionsBall
  refine ⟨fun cs h => ?_, fun st h => ?_⟩
  · rw [h]
    exact ⟨_, rfl, stats_of _ _ _ cs⟩
  · obtain ⟨cs, h, _⟩ := Outcome.bind_ok_iff.mp h
    exact ⟨cs, h⟩

/-! ## Depths and volumes in space -/

/-- **C62**, two spheres. The depth of a contact between two spheres that are in the same place is minus the least distance by which the first sphere has to
be moved to be clear of the other one. If neither is scripted, the volume is that of the intersection of the two balls. -/
theorem C62_spheres (h : s.computeActiveSet3 axis portals = .ok cs) (hc : c ∈ cs) (hs : ∀ b ∈ s.bodies, b.Sound) (q : Pose3)
    (hn : c.name = "sphere_sphere" ∨ c.name = "kinematic_sphere_sphere") :
    ∃ i j a b ra rb d, c.pair = some (min i j, max i j) ∧ s.bodies[i]? = some a ∧ s.bodies[j]? = some b ∧ a.geometry = .sphere ra ∧ b.geometry = .sphere rb ∧
      a.fixed = false ∧ (b.fixed = true ↔ c.name = "kinematic_sphere_sphere") ∧
      c.penetrationDepth q = some d ∧ LeastSeparation3 (q.x i) ra (openBall3 (q.x j) rb) (-d) ∧
      (c.name = "sphere_sphere" → c.overlapVolume q = some (volume (a.pointsAt q i ∩ b.pointsAt q j)).toReal) := by
  have hm := made_activeSet h hc
  cases hm with
  | sphereSphere i j a b ra rb ha hb hfa hfb hga hgb =>
    have hra : 0 < ra := by simpa [SceneBody3.Sound, hga] using hs a (List.mem_of_getElem? ha)
    have hrb : 0 < rb := by simpa [SceneBody3.Sound, hgb] using hs b (List.mem_of_getElem? hb)
    refine ⟨i, j, a, b, ra, rb, _, rfl, ha, hb, hga, hgb, hfa, by simp [hfb, Contact3.name], rfl, separation3_balls _ _ hra hrb, fun _ => ?_⟩
    rw [volume_overlap i j _ _ hra hrb q]
    simp [SceneBody3.pointsAt, PosedBody3D.points, hga, hgb]
  | kinematicSphere i k a b ra rb ha hb hfa hfb hga hgb =>
    have hra : 0 < ra := by simpa [SceneBody3.Sound, hga] using hs a (List.mem_of_getElem? ha)
    have hrb : 0 < rb := by simpa [SceneBody3.Sound, hgb] using hs b (List.mem_of_getElem? hb)
    exact ⟨i, k, a, b, ra, rb, _, rfl, ha, hb, hga, hgb, hfa, by simp [hfb, Contact3.name], rfl, separation3_balls _ _ hra hrb,
      fun h => by simp [Contact3.name] at h⟩
  | _ => simp [Contact3.name, Contact3.mkBodyBody, Contact3.mkKinematicBody, Contact3.mkPlaneBox, Contact3.mkPlaneBody, Contact3.mkCylinderBody,
      Contact3.mkTeleported] at hn

/-- **C62**, a sphere and a plane. The depth is minus the least distance by which the sphere has to be moved to have no point below the plane. -/
theorem C62_plane (h : s.computeActiveSet3 axis portals = .ok cs) (hc : c ∈ cs) (hs : ∀ b ∈ s.bodies, b.Sound) (hp : ∀ p ∈ s.planes, inner3 p.n p.n = 1)
    (q : Pose3) (hn : c.name = "static_plane_sphere") :
    ∃ i k a r p d, c.planePair = some (i, k) ∧ s.bodies[i]? = some a ∧ a.geometry = .sphere r ∧ s.planes[k]? = some p ∧
      c.penetrationDepth q = some d ∧ LeastSeparation3 (q.x i) r p.below (-d) := by
  have hm := made_activeSet h hc
  cases hm with
  | planeSphere i k a r p ha hfa hga hpk =>
    have hra : 0 < r := by simpa [SceneBody3.Sound, hga] using hs a (List.mem_of_getElem? ha)
    exact ⟨i, k, a, r, p, _, rfl, ha, hga, hpk, rfl, separation3_plane _ p (hp p (List.mem_of_getElem? hpk)) hra⟩
  | _ => simp [Contact3.name, Contact3.mkBodyBody, Contact3.mkKinematicBody, Contact3.mkPlaneBox, Contact3.mkPlaneBody, Contact3.mkCylinderBody,
      Contact3.mkTeleported] at hn

/-- **C62**, a sphere in a cylinder. If the sphere fits into the cylinder, the depth is minus the least distance by which the sphere has to be moved to have no
point outside of the cylinder. -/
theorem C62_cylinder (h : s.computeActiveSet3 axis portals = .ok cs) (hc : c ∈ cs) (hs : ∀ b ∈ s.bodies, b.Sound)
    (hp : ∀ c ∈ s.cylinders, inner3 c.axis c.axis = 1) (q : Pose3) (hn : c.name = "static_cylinder_sphere") :
    ∃ i a r cyl d, c.cylinderPair = some (i, cyl) ∧ s.bodies[i]? = some a ∧ a.geometry = .sphere r ∧ cyl ∈ s.cylinders ∧
      c.penetrationDepth q = some d ∧ (r ≤ cyl.r → LeastSeparation3 (q.x i) r cyl.outside (-d)) := by
  have hm := made_activeSet h hc
  cases hm with
  | cylinderSphere i k a r cyl ha hfa hga hck =>
    have hra : 0 < r := by simpa [SceneBody3.Sound, hga] using hs a (List.mem_of_getElem? ha)
    exact ⟨i, a, r, cyl, _, rfl, ha, hga, List.mem_of_getElem? hck, rfl,
      fun hr => separation3_cylinder _ cyl (hp cyl (List.mem_of_getElem? hck)) hra hr⟩
  | _ => simp [Contact3.name, Contact3.mkBodyBody, Contact3.mkKinematicBody, Contact3.mkPlaneBox, Contact3.mkPlaneBody, Contact3.mkCylinderBody,
      Contact3.mkTeleported] at hn

/-- C62, limits. Contacts of other kinds have no depth, and only contacts between two free spheres have a volume: the totals for these names are NaN. -/
theorem C62_nan (q : Pose3) : (c.penetrationDepth q = none ↔ c.name ∉ ["sphere_sphere", "kinematic_sphere_sphere", "static_plane_sphere", "static_cylinder_sphere"]) ∧
    (c.overlapVolume q = none ↔ c.name ≠ "sphere_sphere") := by
  cases c with
  | kinematicSphere i r n k x v omega rk => cases rk <;> simp [Contact3.name, Contact3.penetrationDepth, Contact3.overlapVolume]
  | sphereSphere i j n p ra rb =>
    refine ⟨by simp [Contact3.name, Contact3.penetrationDepth], ?_⟩
    simp only [Contact3.overlapVolume, Contact3.name]
    split
    · simp
    · split <;> simp
  | _ => simp [Contact3.name, Contact3.penetrationDepth, Contact3.overlapVolume]

/-! ## All pairs of spheres -/

theorem dispatch_name {p : Nat × Nat} {l : List Contact3} (h : s.dispatchNarrowPhaseCollision p = .ok l) (hc : c ∈ l) {a b : SceneBody3} {ra rb : ℝ}
    (ha : s.bodies[p.1]? = some a) (hb : s.bodies[p.2]? = some b) (hfa : a.fixed = false) (hfb : b.fixed = false) (hga : a.geometry = .sphere ra)
    (hgb : b.geometry = .sphere rb) : c.name = "sphere_sphere" := by
  unfold dispatchNarrowPhaseCollision at h
  rw [ha, hb] at h
  dsimp only at h
  rw [if_neg (by simp [hfa]), if_neg (by simp [hfa])] at h
  unfold dispatchOrdered at h
  rw [hga, hgb] at h
  dsimp only at h
  injection h with h
  subst h
  unfold sphereSphereNarrowPhaseCollision at hc
  dsimp only at hc
  split at hc
  · rw [if_pos (by simp [hfb]), List.mem_singleton] at hc
    subst hc
    rfl
  · cases hc

theorem dispatch_pair {p : Nat × Nat} (hp : p.1 < p.2) {l : List Contact3} (h : s.dispatchNarrowPhaseCollision p = .ok l) (hc : c ∈ l) : c.pair = some p := by
  have hord : ∀ {i j : Nat} {a b : SceneBody3} {l : List Contact3}, s.dispatchOrdered i j a b = .ok l → c ∈ l → c.pair = some (min i j, max i j) := by
    intro i j a b l h hc
    unfold dispatchOrdered at h
    split at h
    · cases h
      unfold boxBoxNarrowPhaseCollision at hc
      dsimp only at hc
      split at hc <;> obtain ⟨p, _, rfl⟩ := List.mem_map.mp hc <;> rfl
    · cases h
      unfold sphereSphereNarrowPhaseCollision at hc
      dsimp only at hc
      split at hc
      · split at hc <;> rw [List.mem_singleton] at hc <;> subst hc <;> rfl
      · cases hc
    · unfold stapleStapleNarrowPhaseCollision at h
      split at h <;> cases h
      cases hc
    · cases h
      unfold meshMeshNarrowPhaseCollision at hc
      dsimp only at hc
      split at hc <;> obtain ⟨p, _, rfl⟩ := List.mem_map.mp hc <;> rfl
    · cases h
  unfold dispatchNarrowPhaseCollision at h
  split at h
  · split at h
    · cases h; cases hc
    · split at h
      · rw [hord h hc, min_eq_right hp.le, max_eq_left hp.le]
      · rw [hord h hc, min_eq_left hp.le, max_eq_right hp.le]
  · cases h

theorem scenePoints_eq {bodies : List SceneBody3} {q : Pose3} {i : Nat} {b : SceneBody3} (h : bodies[i]? = some b) :
    scenePoints bodies q i = b.pointsAt q i := by
  ext z
  simp [scenePoints, h]

/-- The radius of a sphere of the scene -/
noncomputable def radiusAt (bodies : List SceneBody3) (i : Nat) : ℝ :=
  match bodies[i]? with
  | some ⟨.sphere r, _, _⟩ => r
  | _ => 0

theorem radiusAt_eq {bodies : List SceneBody3} {i : Nat} {b : SceneBody3} {r : ℝ} (h : bodies[i]? = some b) (hg : b.geometry = .sphere r) :
    radiusAt bodies i = r := by
  obtain ⟨g, m, f⟩ := b
  cases hg
  simp [radiusAt, h]

theorem norm3_sub_comm (a b : Vec3) : norm3 (a - b) = norm3 (b - a) := by
  simp only [norm3, Pi.sub_apply]
  congr 1
  ring

/-- **C62** (partial), spheres. Without portals, for bodies with valid boxes that are spread over at most 1625 average sizes, if bodies whose axis aligned boxes
meet are of the same kind and no touching staples, and no body is next to a surface that is not supported for it, the statistics succeed. The entries for `sphere_sphere` are the
number of pairs of free spheres that have a point in common, minus the sum over these pairs of the least distances by which one of the two spheres has to be
moved to be clear of the other, and the sum of the volumes of their intersections; there is no entry if no pair meets. Missing: scenes that are spread out
further, and portals. -/
theorem C62_sphere_pairs_partial (bodies : List SceneBody3) (planes : List Plane3) (cylinders : List Cylinder3) (q : Pose3) (hs : s = ⟨bodies, planes, cylinders, q, q⟩)
    (hne : s.bodies ≠ []) (hsound : ∀ b ∈ s.bodies, b.Sound) (hv : ∀ B ∈ s.endBoxes, B.Valid) (hsp : Spread s.endBoxes 1625)
    (hk : ∀ (i j : Nat) a b, i < j → s.bodies[i]? = some a → s.bodies[j]? = some b → ¬(a.fixed = true ∧ b.fixed = true) → BoxesMeet3 s.q1 i j a b →
      Supported3 s i j a b) (hsurf : s.SupportedSurfaces) :
    ∃ st, computeNumberOfCollisions3 axis bodies planes cylinders [] q = .ok st ∧ ∃ S : Finset (ℕ × ℕ), (∀ i j, (i, j) ∈ S ↔ SpheresMeet bodies q i j) ∧
      (S = ∅ → st.counts "sphere_sphere" = none ∧ st.depths "sphere_sphere" = none ∧ st.volumes "sphere_sphere" = none) ∧
      (S ≠ ∅ → st.counts "sphere_sphere" = some S.card ∧
        st.volumes "sphere_sphere" = some (some (∑ p ∈ S, (volume (scenePoints bodies q p.1 ∩ scenePoints bodies q p.2)).toReal)) ∧
        ∃ depth : ℕ × ℕ → ℝ, st.depths "sphere_sphere" = some (some (-∑ p ∈ S, depth p)) ∧
          ∀ i j a b ra rb, (i, j) ∈ S → bodies[i]? = some a → bodies[j]? = some b → a.geometry = .sphere ra → b.geometry = .sphere rb →
            LeastSeparation3 (q.x i) ra (openBall3 (q.x j) rb) (depth (i, j))) := by
  have hb0 : s.bodies = bodies := by rw [hs]
  have hq0 : s.q0 = q := by rw [hs]
  have hq1 : s.q1 = q := by rw [hs]
  obtain ⟨cs, hcs, hpairs⟩ := C61_exact_partial (axis := axis) hne hsound hv hsp hk hsurf
  obtain ⟨pairs, hp, hnd, hset⟩ := overlaps_ok3 hne hv hsp
  have hlen : s.endBoxes.length = s.bodies.length := by simp [endBoxes]
  have hlt : ∀ p ∈ pairs, p.1 < s.bodies.length ∧ p.2 < s.bodies.length := by
    rintro ⟨i, j⟩ hij
    obtain ⟨_, A, B, hA, hB, _⟩ := (hset i j).mp hij
    have h1 := (List.getElem?_eq_some_iff.mp hA).1
    have h2 := (List.getElem?_eq_some_iff.mp hB).1
    rw [hlen] at h1 h2
    exact ⟨h1, h2⟩
  -- a contact for a pair of free spheres is a contact between spheres
  have hname : ∀ c ∈ cs, ∀ i j a b ra rb, c.pair = some (i, j) → s.bodies[i]? = some a → s.bodies[j]? = some b → a.fixed = false → b.fixed = false →
      a.geometry = .sphere ra → b.geometry = .sphere rb → c.name = "sphere_sphere" := by
    intro c hc i j a b ra rb hcp ha hb hfa hfb hga hgb
    have hcs' := hcs
    unfold computeActiveSet3 at hcs'
    obtain ⟨lb, hlb, hcs'⟩ := Outcome.bind_ok_iff.mp hcs'
    obtain ⟨lp, hlp, hcs'⟩ := Outcome.bind_ok_iff.mp hcs'
    obtain ⟨lc, hlc, hcs'⟩ := Outcome.bind_ok_iff.mp hcs'
    cases hcs'
    rcases List.mem_append.mp hc with hc | hc
    · rcases List.mem_append.mp hc with hc | hc
      · rw [bodyBody_direct hp hlt] at hlb
        obtain ⟨p, hpp, l, hl, hcl⟩ := ((Step2.collect_ok hlb).1 c).mp hc
        have hp12 : p.1 < p.2 := ((hset p.1 p.2).mp hpp).1
        have := dispatch_pair hp12 hl hcl
        rw [hcp] at this
        cases this
        exact dispatch_name hl hcl ha hb hfa hfb hga hgb
      · exfalso
        unfold computeBodyPlaneActiveSetAllPairs at hlp
        obtain ⟨⟨p, k⟩, _, l', h', hcl⟩ := ((Step2.collect_ok hlp).1 c).mp hc
        obtain ⟨⟨b, i⟩, _, l'', h'', hcl⟩ := ((Step2.collect_ok h').1 c).mp hcl
        rw [(plane_kind h'' hcl).1] at hcp
        cases hcp
    · exfalso
      unfold computeBodyCylinderActiveSetAllPairs at hlc
      obtain ⟨⟨p, k⟩, _, l', h', hcl⟩ := ((Step2.collect_ok hlc).1 c).mp hc
      obtain ⟨⟨b, i⟩, _, l'', h'', hcl⟩ := ((Step2.collect_ok h').1 c).mp hcl
      rw [(cylinder_kind h'' hcl).1] at hcp
      cases hcp
  obtain ⟨st, hst, hof⟩ := (C62_totals (axis := axis) bodies planes cylinders [] q).1 cs (by rw [← hs]; exact hcs)
  set L := cs.filter fun c => c.name = "sphere_sphere" with hL
  set f : Contact3 → ℕ × ℕ := fun c => c.pair.getD (0, 0) with hf
  -- what the contacts in question are
  have hshape : ∀ c ∈ L, ∃ i j a b ra rb n p, c = .sphereSphere i j n p ra rb ∧ s.bodies[i]? = some a ∧ s.bodies[j]? = some b ∧ a.fixed = false ∧ b.fixed = false ∧
      a.geometry = .sphere ra ∧ b.geometry = .sphere rb ∧ 0 < ra ∧ 0 < rb := by
    intro c hc
    obtain ⟨hc, hn⟩ := List.mem_filter.mp hc
    simp only [decide_eq_true_eq] at hn
    have hm := made_activeSet hcs hc
    cases hm with
    | sphereSphere i j a b ra rb ha hb hfa hfb hga hgb =>
      have hra : 0 < ra := by simpa [SceneBody3.Sound, hga] using hsound a (List.mem_of_getElem? ha)
      have hrb : 0 < rb := by simpa [SceneBody3.Sound, hgb] using hsound b (List.mem_of_getElem? hb)
      exact ⟨i, j, a, b, ra, rb, _, _, rfl, ha, hb, hfa, hfb, hga, hgb, hra, hrb⟩
    | _ => simp [Contact3.name, Contact3.mkBodyBody, Contact3.mkKinematicBody, Contact3.mkPlaneBox, Contact3.mkPlaneBody, Contact3.mkCylinderBody,
        Contact3.mkTeleported] at hn
  have hfp : ∀ c ∈ L, c.pair = some (f c) := by
    intro c hc
    obtain ⟨i, j, a, b, ra, rb, n, p, rfl, _⟩ := hshape c hc
    rfl
  have hmap : L.map f = L.filterMap Contact3.pair := by
    rw [← List.filterMap_eq_map]
    exact List.filterMap_congr fun c hc => by rw [hfp c hc]; rfl
  have hnodup : (L.map f).Nodup := by
    rw [List.nodup_iff_count_le_one]
    rintro ⟨i, j⟩
    by_cases hmem : (i, j) ∈ L.map f
    · obtain ⟨c, hc, hcf⟩ := List.mem_map.mp hmem
      obtain ⟨i', j', a, b, ra, rb, n, p, rfl, ha, hb, _, _, hga, hgb, _⟩ := hshape c hc
      have hle : (L.map f).count (i, j) ≤ (cs.filterMap Contact3.pair).count (i, j) := by
        rw [hmap]
        exact (List.filter_sublist.filterMap _).count_le _
      have hij : (i, j) = (min i' j', max i' j') := hcf.symm
      refine hle.trans ?_
      rcases le_total i' j' with hl | hl
      · rw [min_eq_left hl, max_eq_right hl] at hij
        cases hij
        exact (hpairs _ _).2.2 a ra ha hga
      · rw [min_eq_right hl, max_eq_left hl] at hij
        cases hij
        exact (hpairs _ _).2.2 b rb hb hgb
    · rw [List.count_eq_zero_of_not_mem hmem]
      exact Nat.zero_le _
  have hS : ∀ i j, (i, j) ∈ (L.map f).toFinset ↔ SpheresMeet bodies q i j := by
    intro i j
    rw [List.mem_toFinset]
    constructor
    · intro hmem
      obtain ⟨c, hc, hcf⟩ := List.mem_map.mp hmem
      have hcp := hfp c hc
      rw [hcf] at hcp
      have hin : (i, j) ∈ cs.filterMap Contact3.pair := List.mem_filterMap.mpr ⟨c, (List.mem_filter.mp hc).1, hcp⟩
      obtain ⟨hij, a, b, ha, hb, hfix, hcol⟩ := (hpairs i j).1 hin
      obtain ⟨i', j', a', b', ra, rb, n, p, rfl, ha', hb', hfa, hfb, hga, hgb, _⟩ := hshape c hc
      have hij' : (i, j) = (min i' j', max i' j') := hcf.symm
      rcases le_total i' j' with hl | hl
      · rw [min_eq_left hl, max_eq_right hl] at hij'
        cases hij'
        rw [ha] at ha'
        rw [hb] at hb'
        cases ha'
        cases hb'
        simp only [Touch3, Collide3, hga, hgb, hq1] at hcol
        obtain ⟨z, hz1, hz2⟩ := hcol
        simp only [SceneBody3.pointsAt, PosedBody3D.points, hga, hgb] at hz1 hz2
        rw [hb0] at ha hb
        exact ⟨hij, a, b, ra, rb, ha, hb, hfa, hfb, hga, hgb, z, hz1, hz2⟩
      · rw [min_eq_right hl, max_eq_left hl] at hij'
        cases hij'
        rw [ha] at hb'
        rw [hb] at ha'
        cases ha'
        cases hb'
        simp only [Touch3, Collide3, hga, hgb, hq1] at hcol
        obtain ⟨z, hz1, hz2⟩ := hcol
        simp only [SceneBody3.pointsAt, PosedBody3D.points, hga, hgb] at hz1 hz2
        rw [hb0] at ha hb
        exact ⟨hij, a, b, rb, ra, ha, hb, hfb, hfa, hgb, hga, z, hz1, hz2⟩
    · rintro ⟨hij, a, b, ra, rb, ha, hb, hfa, hfb, hga, hgb, z, hz1, hz2⟩
      rw [← hb0] at ha hb
      have hin : (i, j) ∈ cs.filterMap Contact3.pair := by
        refine (hpairs i j).2.1 a b hij ha hb (by simp [hfa]) ?_
        simp only [Collide3, hga, hgb, hq1]
        refine ⟨z, ?_, ?_⟩ <;> simp only [SceneBody3.pointsAt, PosedBody3D.points, hga, hgb] <;> assumption
      obtain ⟨c, hc, hcp⟩ := List.mem_filterMap.mp hin
      refine List.mem_map.mpr ⟨c, List.mem_filter.mpr ⟨hc, ?_⟩, by simp [hf, hcp]⟩
      simpa using hname c hc i j a b ra rb hcp ha hb hfa hfb hga hgb
  refine ⟨st, hst, (L.map f).toFinset, hS, fun hempty => ?_, fun hnonempty => ?_⟩
  · apply (hof "sphere_sphere").1
    intro c hc hn
    have : f c ∈ (L.map f).toFinset := List.mem_toFinset.mpr (List.mem_map_of_mem (List.mem_filter.mpr ⟨hc, by simpa using hn⟩))
    rw [hempty] at this
    exact absurd this (Finset.notMem_empty _)
  · obtain ⟨p, hpS⟩ := Finset.nonempty_iff_ne_empty.mpr hnonempty
    obtain ⟨c, hc, _⟩ := List.mem_map.mp (List.mem_toFinset.mp hpS)
    have hc' := List.mem_filter.mp hc
    obtain ⟨h1, h2, h3⟩ := (hof "sphere_sphere").2 ⟨c, hc'.1, by simpa using hc'.2⟩
    rw [← hL] at h2 h3
    have hcount : cs.countP (fun c => decide (c.name = "sphere_sphere")) = (L.map f).toFinset.card := by
      rw [List.toFinset_card_of_nodup hnodup, List.length_map, hL, List.countP_eq_length_filter]
    rw [hcount] at h1
    refine ⟨h1, ?_, fun p => -(min 0 (norm3 (q.x p.1 - q.x p.2) - radiusAt bodies p.1 - radiusAt bodies p.2)), ?_, ?_⟩
    · rw [h3, totalNaN_finset L f _ (fun p => (volume (scenePoints bodies q p.1 ∩ scenePoints bodies q p.2)).toReal) hnodup]
      intro c hc
      obtain ⟨i, j, a, b, ra, rb, n, p, rfl, ha, hb, _, _, hga, hgb, hra, hrb⟩ := hshape c hc
      rw [hb0] at ha hb
      rw [volume_overlap i j n p hra hrb q]
      have hfc : f (.sphereSphere i j n p ra rb) = (min i j, max i j) := rfl
      rw [hfc]
      have h1 : ballSet3 (q.x i) ra = scenePoints bodies q i := by
        rw [scenePoints_eq ha]
        simp [SceneBody3.pointsAt, PosedBody3D.points, hga]
      have h2 : ballSet3 (q.x j) rb = scenePoints bodies q j := by
        rw [scenePoints_eq hb]
        simp [SceneBody3.pointsAt, PosedBody3D.points, hgb]
      rw [h1, h2]
      rcases le_total i j with hl | hl
      · rw [min_eq_left hl, max_eq_right hl]
      · rw [min_eq_right hl, max_eq_left hl, Set.inter_comm]
    · rw [h2, totalNaN_finset L f _ (fun p => min 0 (norm3 (q.x p.1 - q.x p.2) - radiusAt bodies p.1 - radiusAt bodies p.2)) hnodup]
      · rw [Finset.sum_neg_distrib, neg_neg]
      intro c hc
      obtain ⟨i, j, a, b, ra, rb, n, p, rfl, ha, hb, _, _, hga, hgb, hra, hrb⟩ := hshape c hc
      rw [hb0] at ha hb
      have hfc : f (.sphereSphere i j n p ra rb) = (min i j, max i j) := rfl
      rw [hfc]
      simp only [Contact3.penetrationDepth]
      rcases le_total i j with hl | hl
      · rw [min_eq_left hl, max_eq_right hl, radiusAt_eq ha hga, radiusAt_eq hb hgb]
      · rw [min_eq_right hl, max_eq_left hl, radiusAt_eq ha hga, radiusAt_eq hb hgb, norm3_sub_comm, sub_right_comm]
    · intro i j a b ra rb hij ha hb hga hgb
      have hra : 0 < ra := by simpa [SceneBody3.Sound, hga] using hsound a (hb0 ▸ List.mem_of_getElem? ha)
      have hrb : 0 < rb := by simpa [SceneBody3.Sound, hgb] using hsound b (hb0 ▸ List.mem_of_getElem? hb)
      dsimp only
      rw [radiusAt_eq ha hga, radiusAt_eq hb hgb]
      exact separation3_balls _ _ hra hrb

/-- Two free spheres of radius 1 with the centres one apart -/
noncomputable def deepSpheres : Step3 where
  bodies := [⟨.sphere 1, noMesh, false⟩, ⟨.sphere 1, noMesh, false⟩]
  planes := []
  cylinders := []
  q0 := ⟨fun i => if i = 0 then ![0, 1, 0] else ![0, 2, 0], fun _ => 1⟩
  q1 := ⟨fun i => if i = 0 then ![0, 1, 0] else ![0, 2, 0], fun _ => 1⟩

theorem deepSpheres_boxes : deepSpheres.endBoxes = [⟨![-1, 0, -1], ![1, 2, 1]⟩, ⟨![-1, 1, -1], ![1, 3, 1]⟩] := by
  simp [endBoxes, deepSpheres, toBox3, Geometry3D.aabb]
  refine ⟨⟨?_, ?_⟩, ?_, ?_⟩ <;> funext i <;> fin_cases i <;> simp <;> norm_num

theorem deepSpheres_spread : Spread deepSpheres.endBoxes 1625 := by
  rw [deepSpheres_boxes]
  have hw : cellWidth ([⟨![-1, 0, -1], ![1, 2, 1]⟩, ⟨![-1, 1, -1], ![1, 3, 1]⟩] : List (Box 3 ℝ)) = 2 := by
    have h : (fun i => ![(1 : ℝ), 2, 1] i - ![-1, 0, -1] i + (![1, 3, 1] i - ![-1, 1, -1] i)) = fun _ => 4 := by
      funext i; fin_cases i <;> simp <;> norm_num
    simp [cellWidth]
    rw [h]
    simp [maxCoeff, Fin.tail]
    norm_num
  intro a ha b hb i
  rw [hw]
  simp only [List.mem_cons, List.not_mem_nil, or_false] at ha hb
  rcases ha with rfl | rfl <;> rcases hb with rfl | rfl <;> fin_cases i <;> simp <;> norm_num

/-- Non-vacuity of C62: one pair, the depth is 1, and the volume is that of the lens, `5 π / 12`. -/
theorem C62_deep_spheres : ∃ st, computeNumberOfCollisions3 axis deepSpheres.bodies [] [] [] deepSpheres.q0 = .ok st ∧
    st.counts "sphere_sphere" = some 1 ∧ st.depths "sphere_sphere" = some (some (-1)) ∧ st.volumes "sphere_sphere" = some (some (5 * Real.pi / 12)) := by
  obtain ⟨st, h1, S, hS, _, h2⟩ := C62_sphere_pairs_partial (axis := axis) (s := deepSpheres) deepSpheres.bodies [] [] deepSpheres.q0 rfl
    (by simp [deepSpheres]) (by simp [deepSpheres, SceneBody3.Sound])
    (by rw [deepSpheres_boxes]
        intro B hB i
        simp only [List.mem_cons, List.not_mem_nil, or_false] at hB
        rcases hB with rfl | rfl <;> fin_cases i <;> simp)
    deepSpheres_spread (by
    intro i j a b _ ha hb _ _
    have ha' := List.mem_of_getElem? ha
    have hb' := List.mem_of_getElem? hb
    simp only [deepSpheres, List.mem_cons, List.not_mem_nil, or_false, or_self] at ha' hb'
    subst ha' hb'
    simp [Supported3]) (by
    intro b hb
    simp only [deepSpheres, List.mem_cons, List.not_mem_nil, or_false, or_self] at hb
    subst hb
    simp)
  have hS1 : S = {(0, 1)} := by
    ext ⟨i, j⟩
    rw [hS, Finset.mem_singleton]
    constructor
    · rintro ⟨hij, a, b, _, _, ha, hb, _⟩
      have hj := (List.getElem?_eq_some_iff.mp hb).1
      simp only [deepSpheres, List.length_cons, List.length_nil] at hj
      have : i = 0 ∧ j = 1 := by omega
      simp [this.1, this.2]
    · intro h
      cases h
      refine ⟨by norm_num, ⟨.sphere 1, noMesh, false⟩, ⟨.sphere 1, noMesh, false⟩, 1, 1, rfl, rfl, rfl, rfl, rfl, rfl, ![0, 1, 0], ?_, ?_⟩ <;>
        simp [ballSet3, deepSpheres]
      norm_num
  subst hS1
  obtain ⟨hc, hv, depth, hd, hsep⟩ := h2 (by simp)
  have hn : norm3 (deepSpheres.q0.x 0 - deepSpheres.q0.x 1) = 1 := by
    simp [deepSpheres, norm3]
    norm_num
  refine ⟨st, h1, by simpa using hc, ?_, ?_⟩
  · have h := hsep 0 1 _ _ 1 1 (by simp) rfl rfl rfl rfl
    have h' := separation3_balls (deepSpheres.q0.x 0) (deepSpheres.q0.x 1) (a := 1) (b := 1) one_pos one_pos
    rw [hd, Finset.sum_singleton, h.unique h', hn]
    norm_num
  · have h := volume_overlap 0 1 0 0 (ra := 1) (rb := 1) one_pos one_pos deepSpheres.q0
    rw [hv, Finset.sum_singleton, scenePoints_eq (b := ⟨.sphere 1, noMesh, false⟩) rfl, scenePoints_eq (b := ⟨.sphere 1, noMesh, false⟩) rfl]
    simp only [SceneBody3.pointsAt, PosedBody3D.points]
    rw [← h]
    simp only [Contact3.overlapVolume, hn, Contact3.overlapVolumeGivenDistanceAndRadii]
    norm_num
    ring

/-! ## Balls in the plane -/

/-- The ordinary contacts between balls, and the contacts with planes -/
theorem ball_shape {junk : ℝ → ℤ} {bs : List BallStep} {planes : List (HalfPlane ℝ)} {drums : List Drum} {portals : List (PlanarPortal ℝ)} {cs : List Contact}
    (h : computeActiveSet junk bs planes drums portals = .ok cs) :
    (∀ c, .ballBall c ∈ cs → c.teleported = false →
      ∃ a b, bs[c.idx0]? = some a ∧ bs[c.idx1]? = some b ∧ c.r0 = a.r ∧ c.r1 = b.r ∧ c.kick = none) ∧
    ∀ i n k, .plane i n k ∈ cs → ∃ b p, bs[i]? = some b ∧ planes[k]? = some p := by
  unfold computeActiveSet at h
  obtain ⟨balls, hb, h⟩ := Outcome.bind_ok_iff.mp h
  cases h
  have hballs : ∀ c ∈ balls, ∃ d, c = .ballBall d ∧ (d.teleported = false →
      ∃ a b, bs[d.idx0]? = some a ∧ bs[d.idx1]? = some b ∧ d.r0 = a.r ∧ d.r1 = b.r ∧ d.kick = none) := by
    intro c hc
    split at hb
    · unfold computeBallBallActiveSetSpatialGrid at hb
      obtain ⟨s, _, hb⟩ := Outcome.bind_ok_iff.mp hb
      cases hb
      obtain ⟨p, _, hp⟩ := List.mem_filterMap.mp hc
      unfold narrowPhase at hp
      split at hp
      · rename_i a b ha hb'
        split at hp
        · cases hp
          exact ⟨_, rfl, fun _ => ⟨a, b, ha, hb', rfl, rfl, rfl⟩⟩
        · cases hp
      · cases hp
    · unfold computeBallBallActiveSetSpatialGridWithPortals at hb
      obtain ⟨r, hr', hb⟩ := Outcome.bind_ok_iff.mp hb
      cases hb
      rcases List.mem_append.mp hc with hc | hc
      · unfold portalCollisions at hr'
        obtain ⟨tele, _, hr'⟩ := Outcome.bind_ok_iff.mp hr'
        obtain ⟨pairs, _, hr'⟩ := Outcome.bind_ok_iff.mp hr'
        cases hr'
        rw [foldl_classify] at hc
        simp only [List.nil_append] at hc
        obtain ⟨p, _, hp⟩ := List.mem_filterMap.mp hc
        obtain ⟨a, b, ha, hb', rfl, _⟩ := ordinaryOf_form hp
        exact ⟨_, rfl, fun _ => ⟨a, b, ha, hb', rfl, rfl, rfl⟩⟩
      · obtain ⟨t, _, ht⟩ := List.mem_filterMap.mp hc
        unfold generateTeleported at ht
        split at ht
        · split at ht
          · cases ht; exact ⟨_, rfl, fun h => by simp [mkBallBall] at h⟩
          · split at ht <;> (cases ht; exact ⟨_, rfl, fun h => by simp [mkBallBall] at h⟩)
        · cases ht
  constructor
  · intro c hc
    rcases List.mem_append.mp hc with hc | hc
    · rcases List.mem_append.mp hc with hc | hc
      · obtain ⟨d, hd, h⟩ := hballs _ hc
        cases hd
        exact h
      · obtain ⟨_, _, _, h⟩ := drumContacts_form hc
        cases h
    · obtain ⟨_, _, _, h⟩ := planeContacts_form hc
      cases h
  · intro i n k hc
    rcases List.mem_append.mp hc with hc | hc
    · rcases List.mem_append.mp hc with hc | hc
      · obtain ⟨d, hd, h⟩ := hballs _ hc
        cases hd
      · obtain ⟨_, _, _, h⟩ := drumContacts_form hc
        cases h
    · simp only [planeContacts, List.mem_flatMap, List.mem_filterMap] at hc
      obtain ⟨⟨p, pi⟩, hp, ⟨b, bi⟩, hb, h⟩ := hc
      rw [List.mk_mem_zipIdx_iff_getElem?] at hp hb
      split at h
      · cases h
        exact ⟨b, p, hb, hp⟩
      · cases h

/-- The entries for one name, if the contacts with that name stand for different pairs -/
theorem stats_pairs {α : Type} {st : CollisionStats} {name : α → String} {depth volume : α → Option ℝ} {cs : List α} (hof : st.Of name depth volume cs)
    (k : String) (f : α → Option (ℕ × ℕ)) (d : ℕ × ℕ → ℝ) (hn : (cs.filterMap f).Nodup) (hname : ∀ c ∈ cs, name c = k ↔ f c ≠ none)
    (hd : ∀ c ∈ cs, ∀ p, f c = some p → depth c = some (d p)) :
    ((cs.filterMap f).toFinset = ∅ → st.counts k = none ∧ st.depths k = none) ∧
    ((cs.filterMap f).toFinset ≠ ∅ → st.counts k = some (cs.filterMap f).toFinset.card ∧
      st.depths k = some (some (∑ p ∈ (cs.filterMap f).toFinset, d p))) := by
  set L := cs.filter fun c => name c = k with hL
  have hLf : ∀ c ∈ L, f c = some ((f c).getD (0, 0)) := by
    intro c hc
    obtain ⟨h1, h2⟩ := List.mem_filter.mp hc
    obtain ⟨p, hp⟩ := Option.ne_none_iff_exists'.mp ((hname c h1).mp (by simpa using h2))
    rw [hp]
    rfl
  have hmap : cs.filterMap f = L.map fun c => (f c).getD (0, 0) := by
    rw [← List.filterMap_eq_map, hL, List.filterMap_filter]
    refine List.filterMap_congr fun c hc => ?_
    by_cases h : name c = k
    · simp only [h, decide_true, if_true]
      exact hLf c (List.mem_filter.mpr ⟨hc, by simpa using h⟩)
    · have := (not_congr (hname c hc)).mp h
      simp only [h, decide_false, Bool.false_eq_true, if_false]
      simpa using this
  constructor
  · intro h
    obtain ⟨h1, h2, _⟩ := (hof k).1 (fun c hc hk => by
      have hc' : c ∈ L := List.mem_filter.mpr ⟨hc, by simpa using hk⟩
      have : (f c).getD (0, 0) ∈ (cs.filterMap f).toFinset := List.mem_toFinset.mpr (by rw [hmap]; exact List.mem_map.mpr ⟨c, hc', rfl⟩)
      rw [h] at this
      exact absurd this (Finset.notMem_empty _))
    exact ⟨h1, h2⟩
  · intro h
    obtain ⟨p, hp⟩ := Finset.nonempty_iff_ne_empty.mpr h
    obtain ⟨c, hc, hcp⟩ := List.mem_filterMap.mp (List.mem_toFinset.mp hp)
    obtain ⟨h1, h2, _⟩ := (hof k).2 ⟨c, hc, (hname c hc).mpr (by simp [hcp])⟩
    constructor
    · rw [h1, List.toFinset_card_of_nodup hn, hmap, List.length_map, hL, List.countP_eq_length_filter]
    · rw [h2, ← hL]
      rw [totalNaN_finset L (fun c => (f c).getD (0, 0)) depth d (by rw [← hmap]; exact hn)]
      · rw [hmap]
      · intro c hc
        exact hd c (List.mem_filter.mp hc).1 _ (hLf c hc)

theorem still_collide (a b : BallAt) : SweptCollide a.still b.still ↔ DiscsMeet a.x a.r b.x b.r := by
  have hm : ∀ (x : V2 ℝ) (t : ℝ), moveTo x x t = x := by
    intro x t
    cases x
    simp only [moveTo]
    congr 1 <;> ring
  constructor
  · rintro ⟨t, _, _, h⟩
    simpa [BallAt.still, hm] using h
  · intro h
    exact ⟨0, le_refl _, zero_le_one, by simpa [BallAt.still, hm] using h⟩

theorem still_getElem {bs : List BallAt} {i : Nat} {a : BallStep} (h : (bs.map BallAt.still)[i]? = some a) : ∃ b, bs[i]? = some b ∧ a = b.still := by
  rw [List.getElem?_map] at h
  obtain ⟨b, hb, rfl⟩ := Option.map_eq_some_iff.mp h
  exact ⟨b, hb, rfl⟩

/-- The least distance by which ball `i` has to be moved to be clear of ball `j` is `depth ( i, j )`, for all pairs of balls. -/
def BallSeparations (bs : List BallAt) (depth : ℕ × ℕ → ℝ) : Prop :=
  ∀ i j a b, bs[i]? = some a → bs[j]? = some b → LeastSeparation2 a.x a.r (openDisc b.x b.r) (depth (i, j))

theorem ball_stats {junk : ℝ → ℤ} {bs : List BallAt} {planes : List (HalfPlane ℝ)} {drums : List Drum} {portals : List (PlanarPortal ℝ)} {cs : List Contact}
    (hr : ∀ b ∈ bs, 0 < b.r) (h : computeActiveSet junk (bs.map BallAt.still) planes drums portals = .ok cs) (hn : (ballPairs false cs).Nodup)
    (hp : ∀ i j, (i, j) ∈ ballPairs false cs ↔ BallsMeet bs i j) :
    ∃ st, computeNumberOfCollisionsBall junk bs planes drums portals = .ok st ∧ ∃ S : Finset (ℕ × ℕ), (∀ i j, (i, j) ∈ S ↔ BallsMeet bs i j) ∧
      (S = ∅ → st.counts "ball_ball" = none ∧ st.depths "ball_ball" = none) ∧
      (S ≠ ∅ → st.counts "ball_ball" = some S.card ∧
        ∃ depth : ℕ × ℕ → ℝ, st.depths "ball_ball" = some (some (-∑ p ∈ S, depth p)) ∧ BallSeparations bs depth) := by
  obtain ⟨st, hst, hof⟩ := (C62_ball_totals junk bs planes drums portals).1 cs h
  obtain ⟨hsh, _⟩ := ball_shape h
  let x : ℕ → V2 ℝ := fun i => ((bs[i]?).map BallAt.x).getD ⟨0, 0⟩
  let r : ℕ → ℝ := fun i => ((bs[i]?).map BallAt.r).getD 0
  have hx : ∀ {i b}, bs[i]? = some b → x i = b.x ∧ r i = b.r := by
    intro i b hb
    simp [x, r, hb]
  have key := stats_pairs hof "ball_ball" (fun c => match c with
    | .ballBall c => if c.teleported = false then some (c.idx0, c.idx1) else none
    | _ => none) (fun p => min 0 (√(x p.1 - x p.2).normSq - r p.1 - r p.2)) hn (by
      intro c hc
      cases c with
      | ballBall c =>
        cases ht : c.teleported
        · obtain ⟨_, _, _, _, _, _, hk⟩ := hsh c hc ht
          simp [Contact.name, ht, hk]
        · cases hk : c.kick <;> simp [Contact.name, ht, hk]
      | _ => simp [Contact.name]) (by
      intro c hc p hcp
      cases c with
      | ballBall c =>
        dsimp only at hcp
        split at hcp
        · rename_i ht
          cases hcp
          obtain ⟨a, b, ha, hb, h0, h1, _⟩ := hsh c hc ht
          obtain ⟨a, ha', rfl⟩ := still_getElem ha
          obtain ⟨b, hb', rfl⟩ := still_getElem hb
          simp only [Contact.penetrationDepth, ht, Bool.false_eq_true, if_false, ha', hb', (hx ha').1, (hx ha').2, (hx hb').1, (hx hb').2, h0, h1, BallAt.still]
          rw [sub_sub]
        · cases hcp
      | _ => cases hcp)
  refine ⟨st, hst, (ballPairs false cs).toFinset, fun i j => by rw [List.mem_toFinset, hp], key.1, fun hne => ?_⟩
  obtain ⟨h1, h2⟩ := key.2 hne
  refine ⟨h1, fun p => -(min 0 (√(x p.1 - x p.2).normSq - r p.1 - r p.2)), ?_, ?_⟩
  · rw [h2, Finset.sum_neg_distrib, neg_neg]
    rfl
  · intro i j a b ha hb
    dsimp only
    rw [(hx ha).1, (hx ha).2, (hx hb).1, (hx hb).2]
    exact separation2_discs _ _ (hr a (List.mem_of_getElem? ha)) (hr b (List.mem_of_getElem? hb))

/-- **C62** (partial), balls. Without portals, for balls with positive radii that are spread over at most 65536 average sizes, the statistics of the ball
simulation succeed. The entries for `ball_ball` are the number of pairs of balls, free or not, that have a point in common, and minus the sum over these pairs
of the least distances by which one of the two has to be moved to be clear of the other; there is no entry if no pair meets. Missing: balls that are spread out
further. -/
theorem C62_ball_pairs_partial (junk : ℝ → ℤ) (bs : List BallAt) (hne : bs ≠ []) (hr : ∀ b ∈ bs, 0 < b.r)
    (hs : Spread (bs.map fun b => sweptBox b.still) 65536) (planes : List (HalfPlane ℝ)) (drums : List Drum) :
    ∃ st, computeNumberOfCollisionsBall junk bs planes drums [] = .ok st ∧ ∃ S : Finset (ℕ × ℕ), (∀ i j, (i, j) ∈ S ↔ BallsMeet bs i j) ∧
      (S = ∅ → st.counts "ball_ball" = none ∧ st.depths "ball_ball" = none) ∧
      (S ≠ ∅ → st.counts "ball_ball" = some S.card ∧
        ∃ depth : ℕ × ℕ → ℝ, st.depths "ball_ball" = some (some (-∑ p ∈ S, depth p)) ∧ BallSeparations bs depth) := by
  obtain ⟨cs, h1, h2, _, h3⟩ := C18_exact_partial junk (bs.map BallAt.still) (by simpa using hne) (by
    intro b hb
    obtain ⟨b, hb', rfl⟩ := List.mem_map.mp hb
    exact hr b hb') (by rw [List.map_map]; exact hs) planes drums
  refine ball_stats hr h1 h2 fun i j => ?_
  rw [h3]
  constructor
  · rintro ⟨hij, a, b, ha, hb, hc⟩
    obtain ⟨a, ha', rfl⟩ := still_getElem ha
    obtain ⟨b, hb', rfl⟩ := still_getElem hb
    exact ⟨hij, a, b, ha', hb', (still_collide a b).mp hc⟩
  · rintro ⟨hij, a, b, ha, hb, hc⟩
    exact ⟨hij, a.still, b.still, by simp [ha], by simp [hb], (still_collide a b).mpr hc⟩

/-- **C62** (partial), balls and portals. If no ball touches both planes of a portal (else the program exits), the entries for `ball_ball` do not count the
pairs that meet only through a portal. -/
theorem C62_ball_portals_partial (junk : ℝ → ℤ) (bs : List BallAt) (hne : bs ≠ []) (hr : ∀ b ∈ bs, 0 < b.r) (portals : List (PlanarPortal ℝ)) (hp : portals ≠ [])
    (tele : List (TeleportedBall × Box 2 ℝ)) (ht : teleportedBalls junk (bs.map BallAt.still) 0 portals = .ok tele)
    (hs : Spread (bs.map (fun b => boxAround b.x b.r) ++ tele.map (·.2)) 65536) (planes : List (HalfPlane ℝ)) (drums : List Drum) :
    ∃ st, computeNumberOfCollisionsBall junk bs planes drums portals = .ok st ∧ ∃ S : Finset (ℕ × ℕ), (∀ i j, (i, j) ∈ S ↔ BallsMeet bs i j) ∧
      (S = ∅ → st.counts "ball_ball" = none ∧ st.depths "ball_ball" = none) ∧
      (S ≠ ∅ → st.counts "ball_ball" = some S.card ∧
        ∃ depth : ℕ × ℕ → ℝ, st.depths "ball_ball" = some (some (-∑ p ∈ S, depth p)) ∧ BallSeparations bs depth) := by
  obtain ⟨cs, h1, _, _, h2, h3⟩ := C51_exact_partial junk (bs.map BallAt.still) (by simpa using hne) (by
    intro b hb
    obtain ⟨b, hb', rfl⟩ := List.mem_map.mp hb
    exact hr b hb') portals hp tele ht (by rw [List.map_map]; exact hs) planes drums
  refine ball_stats hr h1 h2 fun i j => ?_
  rw [h3]
  constructor
  · rintro ⟨hij, a, b, ha, hb, hc⟩
    obtain ⟨a, ha', rfl⟩ := still_getElem ha
    obtain ⟨b, hb', rfl⟩ := still_getElem hb
    exact ⟨hij, a, b, ha', hb', hc⟩
  · rintro ⟨hij, a, b, ha, hb, hc⟩
    exact ⟨hij, a.still, b.still, by simp [ha], by simp [hb], hc⟩

/-- **C62**, balls and planes. Whenever the statistics of the ball simulation succeed, the entries for `static_plane_constraint` are the number of pairs of a
ball and a plane such that the ball has a point that is not above the plane, and minus the sum over these pairs of the least distances by which the ball has to
be moved to have no point below the plane; there is no entry if there is no such pair. -/
theorem C62_ball_planes (junk : ℝ → ℤ) (bs : List BallAt) (hr : ∀ b ∈ bs, 0 < b.r) (planes : List (HalfPlane ℝ))
    (hn : ∀ p ∈ planes, p.n.x ^ 2 + p.n.y ^ 2 = 1) (drums : List Drum) (portals : List (PlanarPortal ℝ)) (st : CollisionStats)
    (h : computeNumberOfCollisionsBall junk bs planes drums portals = .ok st) :
    ∃ S : Finset (ℕ × ℕ), (∀ i k, (i, k) ∈ S ↔ BallOnPlane bs planes i k) ∧
      (S = ∅ → st.counts "static_plane_constraint" = none ∧ st.depths "static_plane_constraint" = none) ∧
      (S ≠ ∅ → st.counts "static_plane_constraint" = some S.card ∧
        ∃ depth : ℕ × ℕ → ℝ, st.depths "static_plane_constraint" = some (some (-∑ p ∈ S, depth p)) ∧
          ∀ i k b p, bs[i]? = some b → planes[k]? = some p → LeastSeparation2 b.x b.r (belowLine p.x p.n) (depth (i, k))) := by
  obtain ⟨cs, hcs⟩ := (C62_ball_totals junk bs planes drums portals).2 st h
  obtain ⟨st', hst, hof⟩ := (C62_ball_totals junk bs planes drums portals).1 cs hcs
  rw [h] at hst
  cases hst
  obtain ⟨hnd, _, hpl, _⟩ := C19_exact junk (bs.map BallAt.still) planes drums portals (by
    intro b hb
    obtain ⟨b, hb', rfl⟩ := List.mem_map.mp hb
    exact (hr b hb').le) hn cs hcs
  obtain ⟨_, hsh⟩ := ball_shape hcs
  let x : ℕ → V2 ℝ := fun i => ((bs[i]?).map BallAt.x).getD ⟨0, 0⟩
  let r : ℕ → ℝ := fun i => ((bs[i]?).map BallAt.r).getD 0
  let px : ℕ → V2 ℝ := fun i => ((planes[i]?).map HalfPlane.x).getD ⟨0, 0⟩
  let pn : ℕ → V2 ℝ := fun i => ((planes[i]?).map HalfPlane.n).getD ⟨0, 0⟩
  have hx : ∀ {i b}, bs[i]? = some b → x i = b.x ∧ r i = b.r := by
    intro i b hb
    simp [x, r, hb]
  have hpx : ∀ {i b}, planes[i]? = some b → px i = b.x ∧ pn i = b.n := by
    intro i b hb
    simp [px, pn, hb]
  have key := stats_pairs hof "static_plane_constraint" (fun c => match c with
    | .plane b _ p => some (b, p)
    | _ => none) (fun p => min 0 ((pn p.2).dot (x p.1 - px p.2) - r p.1)) hnd (by
      intro c hc
      cases c with
      | ballBall c => cases ht : c.teleported <;> cases hk : c.kick <;> simp [Contact.name, ht, hk]
      | _ => simp [Contact.name]) (by
      intro c hc p hcp
      cases c with
      | plane i n k =>
        cases hcp
        obtain ⟨b, p, hb, hp⟩ := hsh i n k hc
        obtain ⟨b, hb', rfl⟩ := still_getElem hb
        simp only [Contact.penetrationDepth, hb', hp, (hx hb').1, (hx hb').2, (hpx hp).1, (hpx hp).2]
      | _ => cases hcp)
  refine ⟨(planePairs cs).toFinset, fun i k => ?_, key.1, fun hne => ?_⟩
  · rw [List.mem_toFinset, hpl]
    constructor
    · rintro ⟨b, p, hb, hp, z, hz, hh⟩
      obtain ⟨b, hb', rfl⟩ := still_getElem hb
      exact ⟨b, p, hb', hp, z, hz, hh⟩
    · rintro ⟨b, p, hb, hp, z, hz, hh⟩
      exact ⟨b.still, p, by simp [hb], hp, z, hz, hh⟩
  · obtain ⟨h1, h2⟩ := key.2 hne
    refine ⟨h1, fun p => -(min 0 ((pn p.2).dot (x p.1 - px p.2) - r p.1)), ?_, ?_⟩
    · rw [h2, Finset.sum_neg_distrib, neg_neg]
      rfl
    · intro i k b p hb hp
      dsimp only
      rw [(hx hb).1, (hx hb).2, (hpx hp).1, (hpx hp).2]
      exact separation2_line _ _ _ (hn p (List.mem_of_getElem? hp)) (hr b (List.mem_of_getElem? hb))

/-- C62, limits of the ball simulation. Contacts with drums and contacts through portals have no depth: the totals for these names are NaN. -/
theorem C62_ball_nan (bs : List BallAt) (planes : List (HalfPlane ℝ)) :
    (∀ i n k, (Contact.drum i n k).penetrationDepth bs planes = none) ∧
    ∀ c : BallBall, c.teleported = true → (Contact.ballBall c).penetrationDepth bs planes = none := by
  refine ⟨fun _ _ _ => rfl, fun c h => ?_⟩
  simp [Contact.penetrationDepth, h]

/-- Two fixed balls of radius 1 with the centres one apart, 1/2 deep in the ground -/
noncomputable def deepBalls : List BallAt := [⟨⟨0, 0⟩, 1, true⟩, ⟨⟨1, 0⟩, 1, true⟩]

theorem deepBalls_spread : Spread (deepBalls.map fun b => sweptBox b.still) 65536 := fixedPair_spread

/-- Non-vacuity of C62 for balls, also of the plane entries -/
theorem C62_deep_balls (junk : ℝ → ℤ) : ∃ st, computeNumberOfCollisionsBall junk deepBalls [⟨⟨0, -1 / 2⟩, ⟨0, 0⟩, ⟨0, 1⟩, ⟨-1, 0⟩⟩] [] [] = .ok st ∧
    st.counts "ball_ball" = some 1 ∧ st.depths "ball_ball" = some (some (-1)) ∧
    st.counts "static_plane_constraint" = some 2 ∧ st.depths "static_plane_constraint" = some (some (-1)) := by
  have hr : ∀ b ∈ deepBalls, 0 < b.r := by simp [deepBalls]
  obtain ⟨st, h1, S, hS, _, h2⟩ := C62_ball_pairs_partial junk deepBalls (by simp [deepBalls]) hr deepBalls_spread [⟨⟨0, -1 / 2⟩, ⟨0, 0⟩, ⟨0, 1⟩, ⟨-1, 0⟩⟩] []
  obtain ⟨T, hT, _, h3⟩ := C62_ball_planes junk deepBalls hr _ (by simp) [] [] st h1
  have hS1 : S = {(0, 1)} := by
    ext ⟨i, j⟩
    rw [hS, Finset.mem_singleton]
    constructor
    · rintro ⟨hij, a, b, ha, hb, _⟩
      have hj := (List.getElem?_eq_some_iff.mp hb).1
      simp only [deepBalls, List.length_cons, List.length_nil] at hj
      have : i = 0 ∧ j = 1 := by omega
      simp [this.1, this.2]
    · intro h
      cases h
      refine ⟨by norm_num, _, _, rfl, rfl, ⟨1, 0⟩, ?_, ?_⟩ <;> simp [InDisc, distSq]
  have hT1 : T = {(0, 0), (1, 0)} := by
    ext ⟨i, k⟩
    rw [hT, Finset.mem_insert, Finset.mem_singleton]
    constructor
    · rintro ⟨b, p, hb, hp, _⟩
      have hi := (List.getElem?_eq_some_iff.mp hb).1
      have hk := (List.getElem?_eq_some_iff.mp hp).1
      simp only [deepBalls, List.length_cons, List.length_nil] at hi hk
      have : k = 0 ∧ (i = 0 ∨ i = 1) := by omega
      rcases this with ⟨rfl, rfl | rfl⟩ <;> simp
    · rintro (h | h)
      · cases h
        refine ⟨_, _, rfl, rfl, ⟨0, -1⟩, ?_, ?_⟩
        · simp [InDisc, distSq]
        · simp [HalfPlane.height]
          norm_num
      · cases h
        refine ⟨_, _, rfl, rfl, ⟨1, -1⟩, ?_, ?_⟩
        · simp [InDisc, distSq]
        · simp [HalfPlane.height]
          norm_num
  subst hS1 hT1
  obtain ⟨hc, depth, hd, hsep⟩ := h2 (by simp)
  obtain ⟨hc', depth', hd', hsep'⟩ := h3 (by simp)
  refine ⟨st, h1, by simpa using hc, ?_, by simpa using hc', ?_⟩
  · have h := hsep 0 1 _ _ rfl rfl
    have h' := separation2_discs (⟨0, 0⟩ : V2 ℝ) ⟨1, 0⟩ (a := 1) (b := 1) one_pos one_pos
    rw [hd, Finset.sum_singleton, h.unique h']
    simp [V2.normSq]
  · have hA := (hsep' 0 0 _ _ rfl rfl).unique (separation2_line (⟨0, 0⟩ : V2 ℝ) ⟨0, -1 / 2⟩ ⟨0, 1⟩ (by norm_num) (r := 1) one_pos)
    have hB := (hsep' 1 0 _ _ rfl rfl).unique (separation2_line (⟨1, 0⟩ : V2 ℝ) ⟨0, -1 / 2⟩ ⟨0, 1⟩ (by norm_num) (r := 1) one_pos)
    rw [hd', Finset.sum_pair (by simp), hA, hB]
    simp [V2.dot]
    norm_num

/-! ## Rigid bodies in the plane -/

/-- **C62**, discs of the planar rigid body simulation. The depth of a contact between two free discs is minus the least distance by which the first disc has
to be moved to be clear of the other one; the depth of a contact between a disc and a plane is minus the least distance by which the disc has to be moved to
have no point below the plane. -/
theorem C62_rb2d_discs {junk : ℝ → ℤ} {s : Step2} {portals : List (PlanarPortal ℝ)} {cs : List Contact2} (h : s.computeActiveSet2 junk portals = .ok cs)
    (hpl : ∀ p ∈ s.planes, p.n.x ^ 2 + p.n.y ^ 2 = 1) {c : Contact2} (hc : c ∈ cs) (q : Dofs) :
    (∀ i j n p ra rb, c = .circleCircle i j n p ra rb → ∃ a b d, s.bodies[i]? = some a ∧ s.bodies[j]? = some b ∧ a.geometry = .circle ra ∧
      b.geometry = .circle rb ∧ c.penetrationDepth q = some d ∧
      (0 < ra → 0 < rb → LeastSeparation2 (seg2 q i) ra (openDisc (seg2 q j) rb) (-d))) ∧
    ∀ i k r p, c = .planeCircle i k r p → ∃ a d, s.bodies[i]? = some a ∧ s.planes[k]? = some p ∧ a.geometry = .circle r ∧ c.penetrationDepth q = some d ∧
      (0 < r → LeastSeparation2 (seg2 q i) r (belowLine p.x p.n) (-d)) := by
  have hm := Step2.made_activeSet h hc
  constructor
  · rintro i j n p ra rb rfl
    cases hm with
    | circleCircle _ _ _ _ _ _ ha hb =>
      obtain ⟨a, ha, hga⟩ := ha
      obtain ⟨b, hb, hgb⟩ := hb
      exact ⟨a, b, _, ha, hb, hga, hgb, rfl, fun h1 h2 => separation2_discs _ _ h1 h2⟩
  · rintro i k r p rfl
    cases hm with
    | planeCircle _ _ _ _ _ hp ha =>
      obtain ⟨a, ha, hga⟩ := ha
      exact ⟨a, _, ha, hp, hga, rfl, fun h1 => separation2_line _ _ _ (hpl p (List.mem_of_getElem? hp)) h1⟩

end Scisim
