import Mathlib.Tactic.LinearCombination
import Mathlib.Tactic.NormNum
import Verif.Lemmas.PlaneFrames
/-! # C96: the normals of planes and the axes of cylinders -/

namespace Scisim.PlaneFrames
open Scisim.Scripting

/-- A scene for rigid bodies with planes is accepted exactly if no normal is zero. Then there is one plane for each element of the scene, in their order, through its point, with a normal of length one in its direction and the tangent
that belongs to it. -/
theorem C96_loaded (es : List (V2 ℝ × V2 ℝ)) :
    ((∃ ps, loadBodies es = .ok ps) ↔ ∀ e ∈ es, e.2.x ≠ 0 ∨ e.2.y ≠ 0) ∧
    ∀ ps, loadBodies es = .ok ps → List.Forall₂ (fun e p => p.x = e.1 ∧ Framed p ∧ Along e.2 p.n) es ps := by
  have h1 : ∀ x n : V2 ℝ, (n.x ≠ 0 ∨ n.y ≠ 0) → loadBody x n = .ok (makeBody x n.normalized) := fun x n h =>
    if_neg (Real.sqrt_ne_zero'.mpr (normSq_pos h))
  have h2 : ∀ x n : V2 ℝ, ¬ (n.x ≠ 0 ∨ n.y ≠ 0) → loadBody x n = .fail := fun x n h => by
    rw [not_or, not_not, not_not] at h
    refine if_pos ?_
    rw [show n.normSq = n.x * n.x + n.y * n.y from rfl, h.1, h.2]; simp
  induction es with
  | nil => exact ⟨⟨fun _ e he => absurd he List.not_mem_nil, fun _ => ⟨[], rfl⟩⟩, fun ps h => by simp only [loadBodies, Outcome.ok.injEq] at h; subst h; exact .nil⟩
  | cons e es ih =>
    by_cases he : e.2.x ≠ 0 ∨ e.2.y ≠ 0
    · refine ⟨⟨fun ⟨ps, h⟩ => ?_, fun h => ?_⟩, fun ps h => ?_⟩
      · obtain ⟨p, _, h⟩ := Outcome.bind_ok_iff.mp h
        obtain ⟨qs, e2, _⟩ := Outcome.bind_ok_iff.mp h
        intro e' h'
        rcases List.mem_cons.mp h' with rfl | h'
        · exact he
        · exact ih.1.mp ⟨qs, e2⟩ e' h'
      · obtain ⟨ps, hp⟩ := ih.1.mpr fun e' h' => h e' (List.mem_cons_of_mem _ h')
        exact ⟨_, Outcome.bind_ok_iff.mpr ⟨_, h1 _ _ he, Outcome.bind_ok_iff.mpr ⟨_, hp, rfl⟩⟩⟩
      · obtain ⟨p, e1, h⟩ := Outcome.bind_ok_iff.mp h
        obtain ⟨qs, e2, h⟩ := Outcome.bind_ok_iff.mp h
        cases h
        rw [h1 _ _ he] at e1; cases e1
        exact .cons ⟨rfl, ⟨(normalized_unit (normSq_pos he)).1, rfl⟩, (normalized_unit (normSq_pos he)).2⟩ (ih.2 qs e2)
    · have hf : loadBodies (e :: es) = .fail := by unfold loadBodies; rw [h2 _ _ he]; rfl
      refine ⟨⟨fun ⟨ps, h⟩ => ?_, fun h => absurd (h e List.mem_cons_self) he⟩, fun ps h => ?_⟩
      · rw [hf] at h; cases h
      · rw [hf] at h; cases h

/-- The planes of ball scenes, if their normals are not zero -/
theorem C96_balls (x n : V2 ℝ) (h : n.x ≠ 0 ∨ n.y ≠ 0) : (makeBall x n).x = x ∧ Framed (makeBall x n) ∧ Along n (makeBall x n).n :=
  ⟨rfl, ⟨(normalized_unit (normSq_pos h)).1, rfl⟩, (normalized_unit (normSq_pos h)).2⟩

/-- Whatever scripts do with the planes, bodies and geometries of a rigid body scene, normals and tangents stay right, as long as no script sets a normal to zero. -/
theorem C96_scripted {G : Type} [HasNaN ℝ] (junk : Nat → Nat) (circle : ℝ → G) (massInertia : G → ℝ → ℝ × ℝ) (os : List (BodyCall ℝ)) (m m' : Machine (BodyWorld ℝ G) ℝ) (hos : ∀ o ∈ os, Proper o)
    (hm : ∀ p ∈ m.world.planes, Framed p) (h : calls (bodyCall V2.normalized junk circle massInertia) os m = .ok m') : ∀ p ∈ m'.world.planes, Framed p :=
  calls_induct Proper (fun m => ∀ p ∈ m.world.planes, Framed p) (fun o m r => bodyCall_framed junk circle massInertia o m r) os m m' hos hm h

/-- A script that sets the normal of an existing plane sets it to the direction it gives, and changes nothing else. -/
theorem C96_set_normal {G : Type} [HasNaN ℝ] (junk : Nat → Nat) (circle : ℝ → G) (massInertia : G → ℝ → ℝ × ℝ) (m : Machine (BodyWorld ℝ G) ℝ) (hs : m.hasState = true) (i : ℕ) (p : BodyPlane ℝ)
    (hi : m.world.planes[i]? = some p) (hb : i < 4294967296) (x y : ℝ) (hxy : x ≠ 0 ∨ y ≠ 0) :
    ∃ n t, bodyCall V2.normalized junk circle massInertia (.setStaticPlaneNormal i x y) m = .ok (.unit, { m with world := { m.world with planes := m.world.planes.set i { p with n := n, t := t } } }) ∧
      Framed { p with n := n, t := t } ∧ Along ⟨x, y⟩ n := by
  have hn := normalized_unit (normSq_pos (n := ⟨x, y⟩) hxy)
  have hl : i < m.world.planes.length := (List.getElem?_eq_some_iff.mp hi).1
  have hu : asUnsigned (i : Int) = i := by unfold asUnsigned; omega
  refine ⟨V2.normalized ⟨x, y⟩, ⟨-(V2.normalized ⟨x, y⟩).y, (V2.normalized ⟨x, y⟩).x⟩, ?_, ⟨hn.1, rfl⟩, hn.2⟩
  have he : element m.world.planes (i : Int) = .ok p := by unfold element; rw [hu, if_neg (by omega), hi]; rfl
  have hst : m.state = .ok m.world := by unfold Machine.state; rw [if_pos hs]
  simp only [bodyCall, hst, Outcome.bind, modifyElement, he, hu, BodyPlane.setN]

/-- With such a normal, the signed distance that the programs compute is the distance to the nearest point of the plane. -/
theorem C96_distance (p : BodyPlane ℝ) (hp : Framed p) (z : V2 ℝ) :
    (∀ w, On p w → (p.n.dot (z - p.x)) ^ 2 ≤ distSq z w) ∧ ∃ w, On p w ∧ distSq z w = (p.n.dot (z - p.x)) ^ 2 := by
  have hd : p.n.dot (z - p.x) = p.n.x * (z.x - p.x.x) + p.n.y * (z.y - p.x.y) := rfl
  have h1 := hp.1
  constructor
  · intro w hw
    unfold On at hw
    rw [hd]
    have e : p.n.x * (z.x - p.x.x) + p.n.y * (z.y - p.x.y) = p.n.x * (z.x - w.x) + p.n.y * (z.y - w.y) := by linear_combination hw
    rw [e]
    unfold distSq
    have : (z.x - w.x) ^ 2 + (z.y - w.y) ^ 2 - (p.n.x * (z.x - w.x) + p.n.y * (z.y - w.y)) ^ 2 = (p.n.x * (z.y - w.y) - p.n.y * (z.x - w.x)) ^ 2 := by
      linear_combination -((z.x - w.x) ^ 2 + (z.y - w.y) ^ 2) * h1
    nlinarith [sq_nonneg (p.n.x * (z.y - w.y) - p.n.y * (z.x - w.x))]
  · rw [hd]
    generalize hs : p.n.x * (z.x - p.x.x) + p.n.y * (z.y - p.x.y) = s
    refine ⟨⟨z.x - s * p.n.x, z.y - s * p.n.y⟩, ?_, ?_⟩
    · unfold On; simp only; linear_combination hs - s * h1
    · unfold distSq; simp only; linear_combination s ^ 2 * h1

/-- A cylinder that is loaded has the point and radius of the scene, and an axis of length one in the direction of the axis in the scene, if that is not zero. -/
theorem C96_cylinder_loaded (x axis : Triple ℝ) (r : ℝ) (h : axis.x ≠ 0 ∨ axis.y ≠ 0 ∨ axis.z ≠ 0) :
    (makeCylinder x axis r).x = x ∧ (makeCylinder x axis r).r = r ∧ UnitAxis (makeCylinder x axis r) ∧ Along3 axis (makeCylinder x axis r).n :=
  ⟨rfl, rfl, unit3_unit (normSq3_pos h), unit3_along (normSq3_pos h)⟩

/-- Scripts keep the length of axes, whatever they do. -/
theorem C96_cylinders {Q : Type} (os : List (SpaceCall ℝ)) (m m' : Machine (SpaceWorld ℝ Q) ℝ) (hm : ∀ c ∈ m.world.cylinders, UnitAxis c) (h : calls (spaceCall isUnit unit3) os m = .ok m') :
    ∀ c ∈ m'.world.cylinders, UnitAxis c :=
  calls_induct (fun _ => True) (fun m => ∀ c ∈ m.world.cylinders, UnitAxis c) (fun o m r _ => spaceCall_unit o m r) os m m' (fun _ _ => trivial) hm h

/-- Scripts in three dimensions add and remove no plane and no cylinder, and change neither the orientations of planes nor the positions, velocities and radii of cylinders. -/
theorem C96_space_kept {Q : Type} (os : List (SpaceCall ℝ)) (m m' : Machine (SpaceWorld ℝ Q) ℝ) (h : calls (spaceCall isUnit unit3) os m = .ok m') :
    m'.world.planes.map (·.R) = m.world.planes.map (·.R) ∧ m'.world.cylinders.map (fun c => (c.x, c.v, c.r)) = m.world.cylinders.map (fun c => (c.x, c.v, c.r)) :=
  calls_induct (fun _ => True) (fun k => k.world.planes.map (·.R) = m.world.planes.map (·.R) ∧ k.world.cylinders.map (fun c => (c.x, c.v, c.r)) = m.world.cylinders.map (fun c => (c.x, c.v, c.r)))
    (fun o k r _ hk hr => ⟨(spaceCall_keeps o k r hr).1.trans hk.1, (spaceCall_keeps o k r hr).2.trans hk.2⟩) os m m' (fun _ _ => trivial) ⟨rfl, rfl⟩ h

/-- The normal zero is accepted in ball scenes and from scripts for rigid bodies. Such a plane has distance zero from every point. -/
theorem C96_zero_false : (∀ x z : V2 ℝ, (makeBall x ⟨0, 0⟩).n.dot (z - x) = 0) ∧ ∀ (p : BodyPlane ℝ) (z : V2 ℝ), (p.setN V2.normalized ⟨0, 0⟩).n.dot (z - p.x) = 0 := by
  have h : V2.normalized (⟨0, 0⟩ : V2 ℝ) = ⟨0, 0⟩ := by unfold V2.normalized V2.normSq; simp
  constructor
  · intro x z; simp [makeBall, h, V2.dot]
  · intro p z; simp [BodyPlane.setN, h, V2.dot]

/-! ## Instances -/

/-- A scene with two planes is accepted. -/
example : ∃ ps, loadBodies [(⟨0, 0⟩, ⟨0, 2⟩), (⟨1, 0⟩, ⟨3, -4⟩)] = .ok ps :=
  (C96_loaded _).1.mpr (by simp)

/-- A plane that is framed -/
example : Framed ⟨⟨1, 2⟩, ⟨3 / 5, 4 / 5⟩, ⟨-(4 / 5), 3 / 5⟩, 0, 0⟩ := by unfold Framed; norm_num

example : Proper (.setStaticPlaneNormal 0 0 (-3)) := by simp [Proper]

/-- A history that goes through, of two calls -/
example {G : Type} [HasNaN ℝ] (b : RbStore ℝ G) (junk : Nat → Nat) (circle : ℝ → G) (massInertia : G → ℝ → ℝ × ℝ) :
    ∃ m', calls (bodyCall V2.normalized junk circle massInertia) [.setStaticPlaneNormal 0 0 (-3), .setStaticPlaneVelocity 0 1 1]
      ⟨⟨b, [makeBall ⟨0, 0⟩ ⟨1, 1⟩]⟩, 0, true, false, none, 0, none, none, none, 0, 0⟩ = .ok m' := ⟨_, rfl⟩

/-- A cylinder whose axis is not zero -/
example : UnitAxis (makeCylinder ⟨0, 0, 0⟩ ⟨0, 2, -1⟩ 3) := (C96_cylinder_loaded _ _ _ (by norm_num)).2.2.1

/-- A history in three dimensions that goes through, of three calls, one of which sets an axis -/
example {Q : Type} (q v : Arr ℝ) (R : Q) (o : Triple ℝ) :
    ∃ m', calls (spaceCall isUnit unit3) [.setStaticPlaneVelocity 0 o, .setStaticCylinderOrientation 0 ⟨0, 1, 0⟩ 2, .setStaticCylinderAngularVelocity 0 o]
      ⟨⟨q, v, [⟨o, R, o⟩], [makeCylinder o ⟨0, 2, -1⟩ 3], []⟩, 0, true, false, none, 0, none, none, none, 0, 0⟩ = .ok m' := by
  have h : isUnit ⟨0, 1, 0⟩ = true := by simp [isUnit, normSq3]
  simp [calls, spaceCall, h, Machine.state, Outcome.bind, modifyElement, element, deref, asUnsigned]

end Scisim.PlaneFrames
