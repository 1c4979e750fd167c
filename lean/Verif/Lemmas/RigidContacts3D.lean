import Mathlib.Tactic.Ring
import Mathlib.Tactic.LinearCombination
import Mathlib.Tactic.Linarith
import Mathlib.Tactic.FinCases
import Mathlib.Tactic.ByContra
import Mathlib.Tactic.Push
import Mathlib.Tactic.FieldSimp
import Mathlib.Tactic.Conv
import Mathlib.Algebra.BigOperators.Intervals
import Verif.Spec.RigidContacts3D
import Verif.Lemmas.RigidContacts2D
import Verif.Lemmas.Portal3D
/-!
# Which contacts are created in space, and from what
-/

namespace Scisim

open Matrix

namespace Step3

/-- A body of the scene that is not scripted -/
def Free (s : Step3) (i : Nat) : Prop := ∃ b, s.bodies[i]? = some b ∧ b.fixed = false

theorem Free.lt {s : Step3} {i : Nat} (h : s.Free i) : i < s.nb := by
  obtain ⟨b, hb, _⟩ := h
  exact (List.getElem?_eq_some_iff.mp hb).1

/-- The ways in which contacts come about -/
inductive Made (axis : Vec3 → Vec3 → Vec3) (s : Step3) (portals : List Portal3) : Contact3 → Prop
  | bodyBody (i j : Nat) (p n : Vec3) (b : SceneBody3) : s.Free i → s.bodies[j]? = some b → b.fixed = false →
      Made axis s portals (.mkBodyBody i j p n s.q0)
  | sphereSphere (i j : Nat) (a b : SceneBody3) (ra rb : ℝ) : s.bodies[i]? = some a → s.bodies[j]? = some b → a.fixed = false → b.fixed = false →
      a.geometry = .sphere ra → b.geometry = .sphere rb →
      Made axis s portals (.sphereSphere i j (normalized3 (s.q0.x i - s.q0.x j)) (s.q0.x i + (ra / (ra + rb)) • (s.q0.x j - s.q0.x i)) ra rb)
  | kinematicSphere (i k : Nat) (a b : SceneBody3) (ra rb : ℝ) : s.bodies[i]? = some a → s.bodies[k]? = some b → a.fixed = false → b.fixed = true →
      a.geometry = .sphere ra → b.geometry = .sphere rb →
      Made axis s portals (.kinematicSphere i ra (normalized3 (s.q0.x i - s.q0.x k)) k (s.q0.x k) 0 0 (some rb))
  | kinematicBody (i k : Nat) (p n : Vec3) (b : SceneBody3) : s.Free i → s.bodies[k]? = some b → b.fixed = true →
      Made axis s portals (.mkKinematicBody i k p n s.q0)
  | planeSphere (i k : Nat) (a : SceneBody3) (r : ℝ) (p : Plane3) : s.bodies[i]? = some a → a.fixed = false → a.geometry = .sphere r →
      s.planes[k]? = some p → Made axis s portals (.planeSphere i r p k)
  | planeBox (i k corner : Nat) (a : SceneBody3) (w : Vec3) (p : Plane3) : s.bodies[i]? = some a → a.fixed = false → a.geometry = .box w →
      s.planes[k]? = some p → Made axis s portals (.mkPlaneBox i corner p.n w s.q0 k)
  | planeBody (i k : Nat) (a : SceneBody3) (verts : List Vec3) (vtx : Vec3) (p : Plane3) : s.bodies[i]? = some a → a.fixed = false →
      a.geometry = .mesh verts → vtx ∈ a.mesh.hull → s.planes[k]? = some p →
      Made axis s portals (.mkPlaneBody i (s.q0.x i + s.q0.R i *ᵥ vtx) p.n s.q0 k)
  | cylinderSphere (i k : Nat) (a : SceneBody3) (r : ℝ) (c : Cylinder3) : s.bodies[i]? = some a → a.fixed = false → a.geometry = .sphere r →
      s.cylinders[k]? = some c → Made axis s portals (.cylinderSphere i r c k)
  | cylinderBody (i k : Nat) (a : SceneBody3) (verts : List Vec3) (vtx : Vec3) (c : Cylinder3) : s.bodies[i]? = some a → a.fixed = false →
      a.geometry = .mesh verts → vtx ∈ a.mesh.hull → s.cylinders[k]? = some c →
      Made axis s portals (.mkCylinderBody i (s.q0.x i + s.q0.R i *ᵥ vtx) c s.q0)
  | teleported (u w : Image) (a b : SceneBody3) (ra rb : ℝ) : s.bodies[u.body]? = some a → s.bodies[w.body]? = some b → a.fixed = false →
      b.fixed = false → a.geometry = .sphere ra → b.geometry = .sphere rb → (u.via ≠ none ∨ w.via ≠ none) →
      Made axis s portals (.mkTeleported u.body w.body (imageCenter3 axis portals s.q0 u) (imageCenter3 axis portals s.q0 w) ra rb)
  | kinematicTeleported (u w : Image) (a b : SceneBody3) (ra rb : ℝ) : s.bodies[u.body]? = some a → s.bodies[w.body]? = some b → a.fixed = false →
      b.fixed = true → a.geometry = .sphere ra → b.geometry = .sphere rb → (u.via ≠ none ∨ w.via ≠ none) →
      Made axis s portals (.kinematicSphere u.body ra (normalized3 (imageCenter3 axis portals s.q0 u - imageCenter3 axis portals s.q0 w)) w.body
        (imageCenter3 axis portals s.q0 w) 0 0 none)

variable {axis : Vec3 → Vec3 → Vec3} {s : Step3} {portals : List Portal3}

theorem made_ordered {i j : Nat} {a b : SceneBody3} (ha : s.bodies[i]? = some a) (hb : s.bodies[j]? = some b) (hf : a.fixed = false)
    {l : List Contact3} (h : s.dispatchOrdered i j a b = .ok l) {d : Contact3} (hd : d ∈ l) : Made axis s portals d := by
  unfold dispatchOrdered at h
  have hfree : s.Free i := ⟨a, ha, hf⟩
  split at h
  · cases h
    unfold boxBoxNarrowPhaseCollision at hd
    dsimp only at hd
    by_cases hbf : b.fixed = true
    · rw [if_neg (by simp [hbf])] at hd
      obtain ⟨p, _, rfl⟩ := List.mem_map.mp hd
      exact .kinematicBody _ _ _ _ b hfree hb hbf
    · rw [if_pos (by simp [hbf])] at hd
      obtain ⟨p, _, rfl⟩ := List.mem_map.mp hd
      exact .bodyBody _ _ _ _ b hfree hb (by simpa using hbf)
  · rename_i hga hgb
    cases h
    unfold sphereSphereNarrowPhaseCollision at hd
    dsimp only at hd
    split at hd
    · by_cases hbf : b.fixed = true
      · rw [if_neg (by simp [hbf])] at hd
        rw [List.mem_singleton] at hd
        subst hd
        exact .kinematicSphere _ _ a b _ _ ha hb hf hbf hga hgb
      · rw [if_pos (by simp [hbf])] at hd
        rw [List.mem_singleton] at hd
        subst hd
        exact .sphereSphere _ _ a b _ _ ha hb hf (by simpa using hbf) hga hgb
    · cases hd
  · unfold stapleStapleNarrowPhaseCollision at h
    split at h <;> cases h
    cases hd
  · cases h
    unfold meshMeshNarrowPhaseCollision at hd
    dsimp only at hd
    by_cases hbf : b.fixed = true
    · rw [if_neg (by simp [hbf])] at hd
      obtain ⟨p, _, rfl⟩ := List.mem_map.mp hd
      exact .kinematicBody _ _ _ _ b hfree hb hbf
    · rw [if_pos (by simp [hbf])] at hd
      obtain ⟨p, _, rfl⟩ := List.mem_map.mp hd
      exact .bodyBody _ _ _ _ b hfree hb (by simpa using hbf)
  · cases h

theorem made_dispatch {p : Nat × Nat} {l : List Contact3} (h : s.dispatchNarrowPhaseCollision p = .ok l) {d : Contact3} (hd : d ∈ l) :
    Made axis s portals d := by
  unfold dispatchNarrowPhaseCollision at h
  split at h
  · rename_i a b ha hb
    by_cases h1 : (a.fixed && b.fixed) = true
    · rw [if_pos h1] at h; cases h; cases hd
    rw [if_neg h1] at h
    by_cases h2 : a.fixed = true
    · rw [if_pos h2] at h
      exact made_ordered hb ha (by simpa [h2] using h1) h hd
    · rw [if_neg h2] at h
      exact made_ordered ha hb (by simpa using h2) h hd
  · cases h

theorem made_plane {l : List Contact3} (h : s.computeBodyPlaneActiveSetAllPairs = .ok l) {c : Contact3} (hc : c ∈ l) : Made axis s portals c := by
  unfold computeBodyPlaneActiveSetAllPairs at h
  obtain ⟨⟨p, k⟩, hp, l', h', hc⟩ := ((Step2.collect_ok h).1 c).mp hc
  obtain ⟨⟨b, i⟩, hb, l'', h, hc⟩ := ((Step2.collect_ok h').1 c).mp hc
  rw [List.mk_mem_zipIdx_iff_getElem?] at hp hb
  dsimp only at h
  unfold bodyPlane at h
  by_cases hf : b.fixed = true
  · rw [if_pos hf] at h; cases h; cases hc
  rw [if_neg hf] at h
  have hf' : b.fixed = false := by simpa using hf
  split at h
  · rename_i hg
    cases h
    obtain ⟨corner, _, rfl⟩ := List.mem_map.mp hc
    exact .planeBox _ _ _ b _ p hb hf' hg hp
  · rename_i hg
    cases h
    split at hc
    · rw [List.mem_singleton] at hc
      subst hc
      exact .planeSphere _ _ b _ p hb hf' hg hp
    · cases hc
  · cases h
  · rename_i hg
    cases h
    obtain ⟨vtx, hv, rfl⟩ := List.mem_map.mp hc
    exact .planeBody _ _ b _ vtx p hb hf' hg (List.mem_of_mem_filter hv) hp

theorem made_cylinder {l : List Contact3} (h : s.computeBodyCylinderActiveSetAllPairs = .ok l) {c : Contact3} (hc : c ∈ l) : Made axis s portals c := by
  unfold computeBodyCylinderActiveSetAllPairs at h
  obtain ⟨⟨p, k⟩, hp, l', h', hc⟩ := ((Step2.collect_ok h).1 c).mp hc
  obtain ⟨⟨b, i⟩, hb, l'', h, hc⟩ := ((Step2.collect_ok h').1 c).mp hc
  rw [List.mk_mem_zipIdx_iff_getElem?] at hp hb
  dsimp only at h
  unfold bodyCylinder at h
  by_cases hf : b.fixed = true
  · rw [if_pos hf] at h; cases h; cases hc
  rw [if_neg hf] at h
  have hf' : b.fixed = false := by simpa using hf
  split at h
  · rename_i hg
    cases h
    split at hc
    · rw [List.mem_singleton] at hc
      subst hc
      exact .cylinderSphere _ _ b _ p hb hf' hg hp
    · cases hc
  · rename_i hg
    cases h
    obtain ⟨vtx, hv, rfl⟩ := List.mem_map.mp hc
    exact .cylinderBody _ k b _ vtx p hb hf' hg (List.mem_of_mem_filter hv) hp
  · cases h
  · cases h

theorem made_teleported {t : TeleportedCollision} (ht : t.fst.via ≠ none ∨ t.snd.via ≠ none) {l : List Contact3}
    (h : s.generateTeleportedCollision axis portals t = .ok l) {d : Contact3} (hd : d ∈ l) : Made axis s portals d := by
  unfold generateTeleportedCollision at h
  split at h
  · rename_i a b ha hb
    split at h
    · rename_i r0 r1 hga hgb
      dsimp only at h
      split at h
      · rename_i hf
        cases h
        rw [List.mem_singleton] at hd
        subst hd
        simp only [Bool.and_eq_true, Bool.not_eq_true'] at hf
        exact .kinematicTeleported _ _ b a _ _ hb ha hf.2 hf.1 hgb hga ht.symm
      · split at h
        · rename_i hf
          cases h
          rw [List.mem_singleton] at hd
          subst hd
          simp only [Bool.and_eq_true, Bool.not_eq_true'] at hf
          exact .kinematicTeleported _ _ a b _ _ ha hb hf.1 hf.2 hga hgb ht
        · split at h
          · rename_i hf
            cases h
            rw [List.mem_singleton] at hd
            subst hd
            simp only [Bool.and_eq_true, Bool.not_eq_true'] at hf
            exact .teleported _ _ a b _ _ ha hb hf.1 hf.2 hga hgb ht
          · cases h
    · cases h
  · cases h

/-- What the loop over candidate pairs collects -/
theorem classifyAll_ok {tele : List TeleportedBall} : ∀ {pairs : List (Nat × Nat)} {acc out : List Contact3 × List TeleportedCollision},
    classifyAll axis s portals tele pairs acc = .ok out →
    (∀ c, c ∈ out.1 ↔ c ∈ acc.1 ∨ ∃ p ∈ pairs, ∃ r, classify3 axis s portals tele p = .ok r ∧ c ∈ r.1) ∧
    out.2 = (pairs.filterMap fun p => match classify3 axis s portals tele p with | .ok r => r.2 | _ => none).foldl
      (fun l c => insertCollision c l) acc.2 ∧
    ∀ p ∈ pairs, ∃ r, classify3 axis s portals tele p = .ok r
  | [], acc, out, h => by
    unfold classifyAll at h
    cases h
    simp
  | p :: ps, acc, out, h => by
    unfold classifyAll at h
    obtain ⟨r, h1, h⟩ := Outcome.bind_ok_iff.mp h
    obtain ⟨ih1, ih2, ih3⟩ := classifyAll_ok h
    refine ⟨?_, ?_, ?_⟩
    · intro c
      rw [ih1, List.mem_append]
      constructor
      · rintro ((hc | hc) | ⟨p', hp', r', h2, h3⟩)
        · exact Or.inl hc
        · exact Or.inr ⟨p, by simp, r, h1, hc⟩
        · exact Or.inr ⟨p', by simp [hp'], r', h2, h3⟩
      · rintro (hc | ⟨p', hp', r', h2, h3⟩)
        · exact Or.inl (Or.inl hc)
        · rcases List.mem_cons.mp hp' with rfl | hp'
          · rw [h1] at h2
            cases h2
            exact Or.inl (Or.inr h3)
          · exact Or.inr ⟨p', hp', r', h2, h3⟩
    · rw [ih2, List.filterMap_cons, h1]
      dsimp only
      cases r.2 <;> rfl
    · intro p' hp'
      rcases List.mem_cons.mp hp' with rfl | hp'
      · exact ⟨r, h1⟩
      · exact ih3 p' hp'

theorem classifyTeleported_some {i j : Image} {c : TeleportedCollision} (h : classifyTeleported axis s portals i j = .ok (some c)) :
    c = Step2.mkTeleportedCollision2 i j := by
  unfold classifyTeleported at h
  split at h
  · split at h
    · cases h
    · obtain ⟨b, _, h⟩ := Outcome.bind_ok_iff.mp h
      split at h
      · exact (Option.some.inj (Outcome.ok.inj h)).symm
      · cases h
  · cases h

/-- Contacts collected in the loop over candidate pairs come from the ordinary narrow phase; teleported collisions involve an image through a portal. -/
theorem classify3_parts {tele : List TeleportedBall} {p : Nat × Nat} {r : List Contact3 × Option TeleportedCollision}
    (h : classify3 axis s portals tele p = .ok r) : (r.1 = [] ∨ s.dispatchNarrowPhaseCollision p = .ok r.1) ∧
      ∀ t, r.2 = some t → t = Step2.mkTeleportedCollision2 (imageOf s.bodies.length tele p.1) (imageOf s.bodies.length tele p.2) ∧
        ((imageOf s.bodies.length tele p.1).via ≠ none ∨ (imageOf s.bodies.length tele p.2).via ≠ none) := by
  unfold classify3 at h
  dsimp only at h
  split at h
  · obtain ⟨cs, h1, h⟩ := Outcome.bind_ok_iff.mp h
    cases h
    exact ⟨Or.inr h1, fun t ht => by cases ht⟩
  · rename_i hu _
    obtain ⟨dup, _, h⟩ := Outcome.bind_ok_iff.mp h
    split at h
    · cases h; exact ⟨Or.inl rfl, fun t ht => by cases ht⟩
    · obtain ⟨t, h1, h⟩ := Outcome.bind_ok_iff.mp h
      cases h
      refine ⟨Or.inl rfl, fun t' ht => ?_⟩
      dsimp only at ht
      subst ht
      exact ⟨classifyTeleported_some h1, Or.inl (by simp [hu])⟩
  · rename_i hnn _
    obtain ⟨t, h1, h⟩ := Outcome.bind_ok_iff.mp h
    cases h
    refine ⟨Or.inl rfl, fun t' ht => ?_⟩
    dsimp only at ht
    subst ht
    refine ⟨classifyTeleported_some h1, ?_⟩
    by_contra hcon
    push Not at hcon
    exact hnn hcon.1 hcon.2

theorem mkTeleported_via {i j : Image} (h : i.via ≠ none ∨ j.via ≠ none) :
    (Step2.mkTeleportedCollision2 i j).fst.via ≠ none ∨ (Step2.mkTeleportedCollision2 i j).snd.via ≠ none := by
  unfold Step2.mkTeleportedCollision2
  split
  · exact h
  · exact h.symm

/-- Every contact of the list was made in one of the ways above. -/
theorem made_activeSet {cs : List Contact3} (h : s.computeActiveSet3 axis portals = .ok cs) {c : Contact3} (hc : c ∈ cs) : Made axis s portals c := by
  unfold computeActiveSet3 at h
  obtain ⟨l, h1, h⟩ := Outcome.bind_ok_iff.mp h
  obtain ⟨lp, h2, h⟩ := Outcome.bind_ok_iff.mp h
  obtain ⟨lc, h3, h⟩ := Outcome.bind_ok_iff.mp h
  cases h
  rw [List.mem_append, List.mem_append] at hc
  rcases hc with (hc | hc) | hc
  · unfold computeActiveSetBodyBodySpatialGrid at h1
    dsimp only at h1
    obtain ⟨pairs, _, h1⟩ := Outcome.bind_ok_iff.mp h1
    obtain ⟨r, hr, h1⟩ := Outcome.bind_ok_iff.mp h1
    obtain ⟨tl, ht, h1⟩ := Outcome.bind_ok_iff.mp h1
    cases h1
    obtain ⟨hr1, hr2, _⟩ := classifyAll_ok hr
    rcases List.mem_append.mp hc with hc | hc
    · rcases (hr1 c).mp hc with hc | ⟨p, _, r', h4, h5⟩
      · cases hc
      · rcases (classify3_parts h4).1 with h6 | h6
        · rw [h6] at h5; cases h5
        · exact made_dispatch h6 h5
    · obtain ⟨t, htm, here, h4, h5⟩ := ((Step2.collect_ok ht).1 c).mp hc
      rw [hr2] at htm
      rcases Step2.mem_foldl_insertCollision htm with htm | htm
      · obtain ⟨p, _, hp⟩ := List.mem_filterMap.mp htm
        split at hp
        · rename_i r' hr'
          obtain ⟨rfl, hvia⟩ := (classify3_parts hr').2 t hp
          exact made_teleported (mkTeleported_via hvia) h4 h5
        · cases hp
      · cases htm
  · exact made_plane h2 hc
  · exact made_cylinder h3 hc

end Step3

/-! ## Algebra -/

theorem vec3_ext {a b : Vec3} (h0 : a 0 = b 0) (h1 : a 1 = b 1) (h2 : a 2 = b 2) : a = b := by
  funext i
  fin_cases i
  · exact h0
  · exact h1
  · exact h2

/-- The normalised difference is parallel to the difference. -/
theorem normalized3_cross (d : Vec3) (a : ℝ) : crossProduct (a • d) (normalized3 d) = 0 := by
  unfold normalized3
  split <;> apply vec3_ext <;> simp only [cross3_0, cross3_1, cross3_2, Pi.smul_apply, smul_eq_mul, Pi.zero_apply] <;> ring

/-- A vector parallel to the normal does not see rotations about itself. -/
theorem dot_cross_of_parallel {n r w : Vec3} (h : crossProduct r n = 0) : n ⬝ᵥ crossProduct w r = 0 := by
  have h0 := congrFun h 0
  have h1 := congrFun h 1
  have h2 := congrFun h 2
  simp only [cross3_0, cross3_1, cross3_2, Pi.zero_apply] at h0 h1 h2
  simp only [dotProduct, Fin.sum_univ_three, cross3_0, cross3_1, cross3_2]
  linear_combination w 0 * h0 + w 1 * h1 + w 2 * h2

theorem rowImpulse3_full (nb i : Nat) (x P : Vec3) (b : Vec3 × Vec3 × Vec3) (a arm : Vec3) (harm : arm = P - x) :
    rowImpulse3 nb i (Contact3.fullRows arm b) a = impulseAbout3 nb x i P (inFrame b a) := by
  subst harm
  funext k
  unfold rowImpulse3 impulseAbout3 Contact3.fullRows inFrame
  dsimp only
  split
  · rfl
  · split
    · rw [map_add, map_add, map_smul, map_smul, map_smul]
    · rfl

theorem sphereRows_eq (arm : Vec3) (b : Vec3 × Vec3 × Vec3) (h : crossProduct arm b.1 = 0) : Contact3.sphereRows arm b = Contact3.fullRows arm b := by
  unfold Contact3.sphereRows Contact3.fullRows
  rw [h]

theorem power3_about (nb i : Nat) (hi : i < nb) (x P f : Vec3) (v : Blocks3) :
    power3 nb (impulseAbout3 nb x i P f) v = f ⬝ᵥ rigidVelocity3 x (v i) (v (nb + i)) P := by
  unfold power3 impulseAbout3
  rw [← Finset.sum_subset (s₁ := {i, nb + i})]
  · rw [Finset.sum_pair (by omega), if_pos rfl, if_neg (by omega), if_pos rfl]
    unfold rigidVelocity3
    simp only [dotProduct, Fin.sum_univ_three, cross3_0, cross3_1, cross3_2, Pi.add_apply, Pi.sub_apply]
    ring
  · intro k hk
    simp only [Finset.mem_insert, Finset.mem_singleton] at hk
    simp only [Finset.mem_range]
    omega
  · intro k _ hk
    simp only [Finset.mem_insert, Finset.mem_singleton, not_or] at hk
    rw [if_neg hk.1, if_neg hk.2, zero_dotProduct]

theorem power3_sub (nb : Nat) (f g v : Blocks3) : power3 nb (fun k => f k - g k) v = power3 nb f v - power3 nb g v := by
  simp [power3, sub_dotProduct]

theorem totalLinear3_about (nb i : Nat) (hi : i < nb) (x P f : Vec3) : totalLinear3 nb (impulseAbout3 nb x i P f) = f := by
  unfold totalLinear3 impulseAbout3
  rw [Finset.sum_eq_single i]
  · rw [if_pos rfl]
  · intro b hb hne
    have := Finset.mem_range.mp hb
    rw [if_neg hne, if_neg (by omega)]
  · intro hb
    exact absurd (Finset.mem_range.mpr hi) hb

theorem totalAngular3_about (nb i : Nat) (hi : i < nb) (q : Pose3) (x P f : Vec3) :
    totalAngular3 nb q (impulseAbout3 nb x i P f) = crossProduct (P + (q.x i - x)) f := by
  unfold totalAngular3 impulseAbout3
  rw [Finset.sum_eq_single i]
  · rw [if_pos rfl, if_neg (by omega), if_pos rfl]
    apply vec3_ext <;> simp only [cross3_0, cross3_1, cross3_2, Pi.add_apply, Pi.sub_apply] <;> ring
  · intro b hb hne
    have := Finset.mem_range.mp hb
    rw [if_neg hne, if_neg (by omega), if_neg (by omega), if_neg (by omega), map_zero, add_zero]
  · intro hb
    exact absurd (Finset.mem_range.mpr hi) hb

theorem totalLinear3_sub (nb : Nat) (f g : Blocks3) : totalLinear3 nb (fun k => f k - g k) = totalLinear3 nb f - totalLinear3 nb g := by
  simp [totalLinear3]

theorem totalAngular3_sub (nb : Nat) (q : Pose3) (f g : Blocks3) :
    totalAngular3 nb q (fun k => f k - g k) = totalAngular3 nb q f - totalAngular3 nb q g := by
  unfold totalAngular3
  rw [← Finset.sum_sub_distrib]
  refine Finset.sum_congr rfl fun b _ => ?_
  apply vec3_ext <;> simp only [cross3_0, cross3_1, cross3_2, Pi.add_apply, Pi.sub_apply] <;> ring

/-! ## Surfaces -/

theorem plane_closest {p : Plane3} (hn : inner3 p.n p.n = 1) (x : Vec3) : IsClosest3 p.surface x (x - (p.n ⬝ᵥ (x - p.x)) • p.n) := by
  rw [dot_inner]
  simp only [inner3] at hn
  constructor
  · simp only [Plane3.surface, Set.mem_ofPred_eq, Plane3.height, inner3, Pi.sub_apply, Pi.smul_apply, smul_eq_mul]
    linear_combination -(p.n 0 * (x 0 - p.x 0) + p.n 1 * (x 1 - p.x 1) + p.n 2 * (x 2 - p.x 2)) * hn
  · intro z hz
    simp only [Plane3.surface, Set.mem_ofPred_eq, Plane3.height, inner3] at hz
    simp only [distSq3, inner3, Pi.sub_apply, Pi.smul_apply, smul_eq_mul]
    set d := p.n 0 * (x 0 - p.x 0) + p.n 1 * (x 1 - p.x 1) + p.n 2 * (x 2 - p.x 2) with hd
    have h1 : (x 0 - (x 0 - d * p.n 0)) ^ 2 + (x 1 - (x 1 - d * p.n 1)) ^ 2 + (x 2 - (x 2 - d * p.n 2)) ^ 2 = d ^ 2 := by
      linear_combination d ^ 2 * hn
    rw [h1]
    have h2 : d = p.n 0 * (x 0 - z 0) + p.n 1 * (x 1 - z 1) + p.n 2 * (x 2 - z 2) := by
      rw [hd]; linear_combination hz
    rw [h2]
    have hcs : (p.n 0 * (x 0 - z 0) + p.n 1 * (x 1 - z 1) + p.n 2 * (x 2 - z 2)) ^ 2 ≤
        (p.n 0 * p.n 0 + p.n 1 * p.n 1 + p.n 2 * p.n 2) * ((x 0 - z 0) ^ 2 + (x 1 - z 1) ^ 2 + (x 2 - z 2) ^ 2) := by
      nlinarith [sq_nonneg (p.n 0 * (x 1 - z 1) - p.n 1 * (x 0 - z 0)), sq_nonneg (p.n 1 * (x 2 - z 2) - p.n 2 * (x 1 - z 1)),
        sq_nonneg (p.n 2 * (x 0 - z 0) - p.n 0 * (x 2 - z 2))]
    rw [hn, one_mul] at hcs
    exact hcs

/-- The frame of a cylinder at a point off its axis: the distance from the axis and the direction away from it -/
theorem cylinder_frame {c : Cylinder3} (hu : inner3 c.axis c.axis = 1) {x : Vec3} (hoff : c.OffAxis x) :
    ∃ (L : ℝ) (n : Vec3), 0 < L ∧ inner3 n n = 1 ∧ inner3 n c.axis = 0 ∧ c.offset x = L • n ∧ x = c.x + inner3 c.axis (x - c.x) • c.axis + L • n ∧
      norm3 (c.offset x) = L ∧ normalized3 (-(c.offset x)) = -n ∧ (norm3 (-(c.offset x)))⁻¹ • -(c.offset x) = -n := by
  have hw : c.offset x ≠ 0 := by
    intro h
    apply hoff (inner3 c.axis (x - c.x))
    have h' : x - c.x - (c.axis ⬝ᵥ (x - c.x)) • c.axis = 0 := h
    rw [dot_inner] at h'
    rw [← sub_eq_zero]
    rw [← h']
    abel
  have hpos : 0 < dot3 (c.offset x) (c.offset x) := by
    have hne : c.offset x 0 ≠ 0 ∨ c.offset x 1 ≠ 0 ∨ c.offset x 2 ≠ 0 := by
      by_contra hcon
      push Not at hcon
      exact hw (vec3_ext hcon.1 hcon.2.1 hcon.2.2)
    simp only [dot3]
    rcases hne with h | h | h
    · nlinarith [mul_self_pos.mpr h, mul_self_nonneg (c.offset x 1), mul_self_nonneg (c.offset x 2)]
    · nlinarith [mul_self_pos.mpr h, mul_self_nonneg (c.offset x 0), mul_self_nonneg (c.offset x 2)]
    · nlinarith [mul_self_pos.mpr h, mul_self_nonneg (c.offset x 1), mul_self_nonneg (c.offset x 0)]
  have hneg : norm3 (-(c.offset x)) = norm3 (c.offset x) := by
    unfold norm3
    simp only [Pi.neg_apply, neg_mul_neg]
  have hL : 0 < norm3 (c.offset x) := Real.sqrt_pos.mpr hpos
  have hLL : norm3 (c.offset x) * norm3 (c.offset x) = dot3 (c.offset x) (c.offset x) := Real.mul_self_sqrt hpos.le
  have haw : inner3 (c.offset x) c.axis = 0 := by
    simp only [inner3] at hu
    unfold Cylinder3.offset
    rw [dot_inner]
    simp only [inner3, Pi.sub_apply, Pi.smul_apply, smul_eq_mul]
    linear_combination -(c.axis 0 * (x 0 - c.x 0) + c.axis 1 * (x 1 - c.x 1) + c.axis 2 * (x 2 - c.x 2)) * hu
  have hx : x = c.x + inner3 c.axis (x - c.x) • c.axis + c.offset x := by
    unfold Cylinder3.offset
    rw [dot_inner]
    abel
  generalize c.offset x = w at *
  generalize norm3 w = L at *
  have hwn : w = L • (L⁻¹ • w) := by rw [smul_smul, mul_inv_cancel₀ hL.ne', one_smul]
  refine ⟨L, L⁻¹ • w, hL, ?_, ?_, hwn, ?_, rfl, ?_, ?_⟩
  · simp only [inner3, Pi.smul_apply, smul_eq_mul]
    simp only [dot3] at hLL
    have h1 : L⁻¹ * w 0 * (L⁻¹ * w 0) + L⁻¹ * w 1 * (L⁻¹ * w 1) + L⁻¹ * w 2 * (L⁻¹ * w 2) = L⁻¹ * L⁻¹ * (L * L) := by rw [hLL]; ring
    rw [h1]
    field_simp
  · simp only [inner3, Pi.smul_apply, smul_eq_mul] at haw ⊢
    linear_combination L⁻¹ * haw
  · rw [← hwn]
    exact hx
  · unfold normalized3
    rw [hneg, if_pos hL]
    apply vec3_ext <;> simp only [Pi.neg_apply, Pi.smul_apply, smul_eq_mul] <;> ring
  · rw [hneg, smul_neg]

theorem cylinder_closest {c : Cylinder3} (hu : inner3 c.axis c.axis = 1) (hr : 0 < c.r) {x : Vec3} (hoff : c.OffAxis x) :
    IsClosest3 c.surface x (c.x + (x - c.x - ((-(normalized3 (-(c.offset x)))) ⬝ᵥ (x - c.x)) • -(normalized3 (-(c.offset x))) +
      c.r • -(normalized3 (-(c.offset x))))) := by
  obtain ⟨L, n, hL, hnn, hna, _, hx, _, hnorm, _⟩ := cylinder_frame hu hoff
  rw [hnorm, neg_neg, dot_inner]
  generalize inner3 c.axis (x - c.x) = al at hx
  have h0 := congrFun hx 0
  have h1 := congrFun hx 1
  have h2 := congrFun hx 2
  simp only [Pi.add_apply, Pi.smul_apply, smul_eq_mul] at h0 h1 h2
  simp only [inner3] at hu hnn hna
  have hny : inner3 n (x - c.x) = L := by
    simp only [inner3, Pi.sub_apply, h0, h1, h2]
    linear_combination al * hna + L * hnn
  rw [hny]
  have hQ : c.x + (x - c.x - L • n + c.r • n) = c.x + al • c.axis + c.r • n := by
    conv_lhs => rw [hx]
    abel
  rw [hQ]
  constructor
  · simp only [Cylinder3.surface, Set.mem_ofPred_eq, inner3, Pi.sub_apply, Pi.add_apply, Pi.smul_apply, smul_eq_mul]
    have e1 : c.axis 0 * (c.x 0 + al * c.axis 0 + c.r * n 0 - c.x 0) + c.axis 1 * (c.x 1 + al * c.axis 1 + c.r * n 1 - c.x 1) +
        c.axis 2 * (c.x 2 + al * c.axis 2 + c.r * n 2 - c.x 2) = al := by linear_combination al * hu + c.r * hna
    rw [e1]
    linear_combination al ^ 2 * hu + 2 * al * c.r * hna + c.r ^ 2 * hnn
  · intro z hz
    simp only [Cylinder3.surface, Set.mem_ofPred_eq, inner3, Pi.sub_apply] at hz
    have hd : distSq3 x (c.x + al • c.axis + c.r • n) = (L - c.r) ^ 2 := by
      simp only [distSq3, Pi.add_apply, Pi.smul_apply, smul_eq_mul, h0, h1, h2]
      linear_combination (L - c.r) ^ 2 * hnn
    rw [hd]
    simp only [distSq3, h0, h1, h2]
    generalize hz0 : z 0 - c.x 0 = u0 at hz
    generalize hz1 : z 1 - c.x 1 = u1 at hz
    generalize hz2 : z 2 - c.x 2 = u2 at hz
    have e : (c.x 0 + al * c.axis 0 + L * n 0 - z 0) ^ 2 + (c.x 1 + al * c.axis 1 + L * n 1 - z 1) ^ 2 + (c.x 2 + al * c.axis 2 + L * n 2 - z 2) ^ 2 =
        (al - (c.axis 0 * u0 + c.axis 1 * u1 + c.axis 2 * u2)) ^ 2 + L ^ 2 + c.r ^ 2 - 2 * L * (n 0 * u0 + n 1 * u1 + n 2 * u2) := by
      rw [← hz0, ← hz1, ← hz2] at hz ⊢
      linear_combination hz + al ^ 2 * hu + L ^ 2 * hnn + 2 * al * L * hna
    rw [e]
    have hbessel : (n 0 * u0 + n 1 * u1 + n 2 * u2) ^ 2 ≤ c.r ^ 2 := by
      set b := c.axis 0 * u0 + c.axis 1 * u1 + c.axis 2 * u2 with hb
      set g := n 0 * u0 + n 1 * u1 + n 2 * u2 with hg
      have hsq : (u0 - b * c.axis 0 - g * n 0) ^ 2 + (u1 - b * c.axis 1 - g * n 1) ^ 2 + (u2 - b * c.axis 2 - g * n 2) ^ 2 = c.r ^ 2 - g ^ 2 := by
        linear_combination hz + b ^ 2 * hu + g ^ 2 * hnn + 2 * b * g * hna + 2 * b * hb + 2 * g * hg
      have hpos := add_nonneg (add_nonneg (sq_nonneg (u0 - b * c.axis 0 - g * n 0)) (sq_nonneg (u1 - b * c.axis 1 - g * n 1)))
        (sq_nonneg (u2 - b * c.axis 2 - g * n 2))
      rw [hsq] at hpos
      linarith
    have hle := (abs_le_of_sq_le_sq' hbessel hr.le).2
    have hLg := mul_le_mul_of_nonneg_left hle hL.le
    have hsq := sq_nonneg (al - (c.axis 0 * u0 + c.axis 1 * u1 + c.axis 2 * u2))
    generalize n 0 * u0 + n 1 * u1 + n 2 * u2 = g at *
    generalize (al - (c.axis 0 * u0 + c.axis 1 * u1 + c.axis 2 * u2)) ^ 2 = e at *
    have e1 : (L - c.r) ^ 2 = L ^ 2 + c.r ^ 2 - 2 * (L * c.r) := by ring
    have e2 : 2 * L * g = 2 * (L * g) := by ring
    rw [e1, e2]
    linarith

end Scisim
