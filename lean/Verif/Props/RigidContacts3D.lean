import Verif.Lemmas.RigidContacts3D
import Verif.Props.Frames
/-!
# C59 and C60: contacts between rigid bodies in space
-/

namespace Scisim

open Matrix Step3

/-- What an impulse `f` at `P` does to the momenta of the simulated bodies of a contact, when their centres are seen at `x` and `y` -/
def pairAbout3 (nb : Nat) (bodies : Nat × Option Nat) (x y P f : Vec3) : Blocks3 :=
  match bodies.2 with
  | some j => fun k => impulseAbout3 nb x bodies.1 P f k - impulseAbout3 nb y j P f k
  | none => impulseAbout3 nb x bodies.1 P f

/-- The relative velocity at `P` of the simulated bodies of a contact, when their centres are seen at `x` and `y` -/
def pairVelocity3 (nb : Nat) (bodies : Nat × Option Nat) (x y P : Vec3) (w : Blocks3) : Vec3 :=
  match bodies.2 with
  | some j => rigidVelocity3 x (w bodies.1) (w (nb + bodies.1)) P - rigidVelocity3 y (w j) (w (nb + j)) P
  | none => rigidVelocity3 x (w bodies.1) (w (nb + bodies.1)) P

variable {axis : Vec3 → Vec3 → Vec3} {s : Step3} {portals : List Portal3} {cs : List Contact3} {c : Contact3}

/-- The rows of a sphere act like an impulse at the point of its surface below the normal. -/
theorem rowImpulse3_sphere (nb i : Nat) (x n : Vec3) (r : ℝ) (b : Vec3 × Vec3 × Vec3) (a : Vec3) (hn : b.1 = n) :
    rowImpulse3 nb i (Contact3.sphereRows ((-r) • b.1) b) a = impulseAbout3 nb x i (x - r • n) (inFrame b a) := by
  subst hn
  rw [sphereRows_eq, rowImpulse3_full nb i x (x - r • b.1)]
  · rw [sub_sub_cancel_left, neg_smul]
  · rw [map_smul, LinearMap.smul_apply, cross_self, smul_zero]

/-! ## C59: what a contact measures and what it does -/

/-- **C59** (partial). For every contact that was not found through a portal there is a point `P`, the reported contact point (only meshes in cylinders do
not report one), such that the relative velocity is the velocity of the first body at `P` minus that of what it touches at `Q`, and the impulse acts at
`P`, on both bodies with opposite signs. Missing: scripted bodies and surfaces in motion where that motion is ignored (`C59_false_moving_plane`). -/
theorem C59_contact_partial (h : s.computeActiveSet3 axis portals = .ok cs) (hc : c ∈ cs) (hd : c.Direct) (hs : s.ProperSurfaces) :
    ∃ P Q, (c.contactPoint s.q0 = .ok P ∨ ∃ i r cyl, c = .cylinderBody i r cyl) ∧ c.Opposite s P Q ∧
      (∀ v, c.PartnerAtRest s v → c.relVel s.nb s.q0 v = bodyVelocity3 s.nb s.q0 v c.simulatedBodies.1 P - partnerVelocity3 s v c Q) ∧
      ∀ v a, contactImpulse3 s.nb c s.q0 v a = pairImpulse3 s.nb s.q0 c.simulatedBodies P (inFrame (c.basis s.nb s.q0 v) a) := by
  cases made_activeSet h hc with
  | bodyBody i j p n b hi hb hf =>
    refine ⟨p, p, Or.inl ?_, rfl, fun v _ => ?_, fun v a => ?_⟩
    · simp [Contact3.mkBodyBody, Contact3.contactPoint]
    · simp only [Contact3.mkBodyBody, Contact3.relVel, Contact3.simulatedBodies, partnerVelocity3, bodyVelocity3, rigidVelocity3]
      abel
    · simp only [Contact3.mkBodyBody, contactImpulse3, Contact3.simulatedBodies, Contact3.evalH, pairImpulse3, pointImpulse3]
      rw [rowImpulse3_full _ _ (s.q0.x i) p _ _ _ rfl, rowImpulse3_full _ _ (s.q0.x j) p _ _ _ rfl]
  | sphereSphere i j a b ra rb ha hb haf hbf hga hgb =>
    refine ⟨_, _, Or.inl rfl, rfl, fun v _ => ?_, fun v a => ?_⟩
    · simp only [Contact3.relVel, Contact3.simulatedBodies, partnerVelocity3, bodyVelocity3, rigidVelocity3]
      abel
    · simp only [contactImpulse3, Contact3.simulatedBodies, Contact3.evalH, pairImpulse3, pointImpulse3]
      rw [sphereRows_eq, sphereRows_eq, rowImpulse3_full _ _ (s.q0.x i) _ _ _ _ rfl, rowImpulse3_full _ _ (s.q0.x j) _ _ _ _ rfl]
      · have he : s.q0.x i + (ra / (ra + rb)) • (s.q0.x j - s.q0.x i) - s.q0.x j = (1 - ra / (ra + rb)) • (s.q0.x i - s.q0.x j) := by
          apply vec3_ext <;> simp <;> ring
        rw [he]
        exact normalized3_cross _ _
      · have he : s.q0.x i + (ra / (ra + rb)) • (s.q0.x j - s.q0.x i) - s.q0.x i = (-(ra / (ra + rb))) • (s.q0.x i - s.q0.x j) := by
          apply vec3_ext <;> simp <;> ring
        rw [he]
        exact normalized3_cross _ _
  | kinematicSphere i k a b ra rb ha hb haf hbf hga hgb =>
    refine ⟨_, _, Or.inl rfl, rfl, fun v hv => ?_, fun v a => ?_⟩
    · obtain ⟨h1, h2⟩ := hv
      simp only [Contact3.relVel, Contact3.kinematicRelVel, Contact3.simulatedBodies, partnerVelocity3, bodyVelocity3, rigidVelocity3, h1, h2]
      simp [sub_sub_cancel_left]
    · simp only [contactImpulse3, Contact3.simulatedBodies, Contact3.evalH, pairImpulse3, pointImpulse3]
      exact rowImpulse3_sphere _ _ _ _ _ _ _ rfl
  | kinematicBody i k p n b hi hb hf =>
    refine ⟨p, p, Or.inl ?_, rfl, fun v hv => ?_, fun v a => ?_⟩
    · simp [Contact3.mkKinematicBody, Contact3.contactPoint]
    · obtain ⟨h1, h2⟩ := hv
      simp only [Contact3.mkKinematicBody, Contact3.relVel, Contact3.simulatedBodies, partnerVelocity3, bodyVelocity3, rigidVelocity3, h1, h2]
      simp
    · simp only [Contact3.mkKinematicBody, contactImpulse3, Contact3.simulatedBodies, Contact3.evalH, pairImpulse3, pointImpulse3]
      rw [rowImpulse3_full _ _ (s.q0.x i) p _ _ _ rfl]
  | planeSphere i k a r p ha haf hga hp =>
    refine ⟨_, s.q0.x i - (p.n ⬝ᵥ (s.q0.x i - p.x)) • p.n, Or.inl rfl, fun p' hp' => ?_, fun v _ => ?_, fun v a => ?_⟩
    · rw [hp] at hp'
      cases hp'
      exact plane_closest (hs.1 p (List.mem_of_getElem? hp)) _
    · simp only [Contact3.relVel, Contact3.simulatedBodies, partnerVelocity3, bodyVelocity3, rigidVelocity3, hp, Contact3.planePointVelocity,
        sub_sub_cancel_left, neg_smul]
      rw [sub_right_comm]
    · simp only [contactImpulse3, Contact3.simulatedBodies, Contact3.evalH, pairImpulse3, pointImpulse3]
      exact rowImpulse3_sphere _ _ _ _ _ _ _ rfl
  | planeBox i k corner a w p ha haf hga hp =>
    refine ⟨_, _, Or.inl rfl, rfl, fun v hv => ?_, fun v a => ?_⟩
    · obtain ⟨h1, h2⟩ := hv p hp
      simp only [Contact3.mkPlaneBox, Contact3.relVel, Contact3.simulatedBodies, partnerVelocity3, bodyVelocity3, rigidVelocity3, hp, h1, h2]
      simp
    · simp only [Contact3.mkPlaneBox, contactImpulse3, Contact3.simulatedBodies, Contact3.evalH, pairImpulse3, pointImpulse3]
      rw [rowImpulse3_full _ _ (s.q0.x i)]
      rw [add_sub_cancel_left]
  | planeBody i k a verts vtx p ha haf hga hv hp =>
    refine ⟨_, _, Or.inl rfl, rfl, fun v hv => ?_, fun v a => ?_⟩
    · obtain ⟨h1, h2⟩ := hv p hp
      simp only [Contact3.mkPlaneBody, Contact3.relVel, Contact3.simulatedBodies, partnerVelocity3, bodyVelocity3, rigidVelocity3, hp, h1, h2]
      simp
    · simp only [Contact3.mkPlaneBody, contactImpulse3, Contact3.simulatedBodies, Contact3.evalH, pairImpulse3, pointImpulse3]
      rw [rowImpulse3_full _ _ (s.q0.x i)]
      rw [add_sub_cancel_left (s.q0.x i) (s.q0.x i + s.q0.R i *ᵥ vtx - s.q0.x i)]
  | cylinderSphere i k a r cyl ha haf hga hp =>
    obtain ⟨hu, hr, hoff⟩ := hs.2 cyl (List.mem_of_getElem? hp)
    refine ⟨_, cyl.x + (s.q0.x i - cyl.x -
      ((-(normalized3 (-(cyl.offset (s.q0.x i))))) ⬝ᵥ (s.q0.x i - cyl.x)) • -(normalized3 (-(cyl.offset (s.q0.x i)))) +
      cyl.r • -(normalized3 (-(cyl.offset (s.q0.x i))))), Or.inl rfl, fun c' hc' => ?_, fun v _ => ?_, fun v a => ?_⟩
    · rw [hp] at hc'
      cases hc'
      exact cylinder_closest hu hr (hoff i a r ha hga)
    · simp only [Contact3.relVel, Contact3.simulatedBodies, partnerVelocity3, bodyVelocity3, rigidVelocity3, hp, Contact3.cylinderPointVelocity,
        Contact3.normal, sub_sub_cancel_left, neg_smul, add_sub_cancel_left]
    · simp only [contactImpulse3, Contact3.simulatedBodies, Contact3.evalH, pairImpulse3, pointImpulse3]
      exact rowImpulse3_sphere _ _ _ _ _ _ _ rfl
  | cylinderBody i k a verts vtx cyl ha haf hga hv hp =>
    refine ⟨s.q0.x i + s.q0.R i *ᵥ vtx, _, Or.inr ⟨_, _, _, rfl⟩, rfl, fun v hv => ?_, fun v a => ?_⟩
    · obtain ⟨h1, h2⟩ := hv
      simp only [Contact3.mkCylinderBody, Contact3.relVel, Contact3.simulatedBodies, partnerVelocity3, bodyVelocity3, rigidVelocity3, h1, h2]
      simp
    · simp only [Contact3.mkCylinderBody, contactImpulse3, Contact3.simulatedBodies, Contact3.evalH, pairImpulse3, pointImpulse3]
      rw [rowImpulse3_full _ _ (s.q0.x i) _ _ _ _ rfl]
  | teleported u w a b ra rb ha hb haf hbf hga hgb hvia => exact hd.elim
  | kinematicTeleported u w a b ra rb ha hb haf hbf hga hgb hvia => exact hd.elim

theorem column_cons {e : Nat × Vec3} {l : Contact3.Inserts} (h : ∀ e' ∈ l, e'.1 ≠ e.1) (k : Nat) :
    Contact3.column (e :: l) k = if k = e.1 then e.2 else Contact3.column l k := by
  unfold Contact3.column
  rw [List.filter_cons]
  by_cases hk : k = e.1
  · subst hk
    have hl : (l.filter fun e' => decide (e'.1 = e.1)) = [] := List.filter_eq_nil_iff.mpr fun e' he' => by simpa using h e' he'
    rw [if_pos (by simp), if_pos rfl, hl]
    rfl
  · rw [if_neg (by simpa using Ne.symm hk), if_neg hk]

theorem column_nil (k : Nat) : Contact3.column [] k = 0 := rfl

theorem column_two {nb i : Nat} (hi : i < nb) {x P f T : Vec3} (hT : T = crossProduct (P - x) f) {m : Nat} (hm : m = nb + i) :
    Contact3.column [(i, f), (m, T)] = impulseAbout3 nb x i P f := by
  funext k
  rw [column_cons (by simp; omega), column_cons (by simp), column_nil]
  unfold impulseAbout3
  rw [← hT, ← hm]

theorem column_one {nb i : Nat} {x P f : Vec3} (hT : crossProduct (P - x) f = 0) :
    Contact3.column [(i, f)] = impulseAbout3 nb x i P f := by
  funext k
  rw [column_cons (by simp), column_nil]
  unfold impulseAbout3
  rw [hT, ite_self]

theorem column_four {nb i j : Nat} (hi : i < nb) (hj : j < nb) (hij : j ≠ i) {x y P f T U : Vec3} (hT : T = crossProduct (P - x) f)
    (hU : U = crossProduct (P - y) f) :
    Contact3.column [(i, f), (i + nb, T), (j, -f), (j + nb, -U)] = fun k => impulseAbout3 nb x i P f k - impulseAbout3 nb y j P f k := by
  funext k
  rw [column_cons (by simp; omega), column_cons (by simp; omega), column_cons (by simp; omega), column_cons (by simp), column_nil]
  unfold impulseAbout3
  rw [← hT, ← hU]
  dsimp only
  split_ifs <;> first | omega | simp

theorem column_pair {nb i j : Nat} (hi : i < nb) (hj : j < nb) (hij : j ≠ i) {x y P f : Vec3} (hT : crossProduct (P - x) f = 0)
    (hU : crossProduct (P - y) f = 0) :
    Contact3.column [(i, f), (j, -f)] = fun k => impulseAbout3 nb x i P f k - impulseAbout3 nb y j P f k := by
  funext k
  rw [column_cons (by simpa using hij), column_cons (by simp), column_nil]
  unfold impulseAbout3
  rw [hT, hU]
  dsimp only
  split_ifs <;> first | omega | simp

/-- Normal component of the difference of velocities at the common point of two spheres -/
theorem normal_pair {n v w a b r0 r1 : Vec3} (h0 : crossProduct r0 n = 0) (h1 : crossProduct r1 n = 0) :
    n ⬝ᵥ (v - w) = n ⬝ᵥ (v + crossProduct a r0 - w - crossProduct b r1) := by
  have e0 := dot_cross_of_parallel (w := a) h0
  have e1 := dot_cross_of_parallel (w := b) h1
  simp only [dotProduct_sub, dotProduct_add, e0, e1]
  ring

theorem normal_one {n v a r0 u : Vec3} (h0 : crossProduct r0 n = 0) : n ⬝ᵥ (v - u) = n ⬝ᵥ (v + crossProduct a r0 - u) := by
  have e0 := dot_cross_of_parallel (w := a) h0
  simp only [dotProduct_sub, dotProduct_add, e0]
  ring

theorem smul_cross_self (n : Vec3) (r : ℝ) : crossProduct ((-r) • n) n = 0 := by
  rw [map_smul, LinearMap.smul_apply, cross_self, smul_zero]

/-- What is common to all contacts: two centres and a point at which the impulse acts and the velocity is measured -/
theorem made_shape (hm : Made axis s portals c) : c.simulatedBodies.1 < s.nb ∧ (∀ j, c.simulatedBodies.2 = some j → j < s.nb) ∧
    ∃ x y P, (c.Direct → x = s.q0.x c.simulatedBodies.1 ∧ ∀ j, c.simulatedBodies.2 = some j → y = s.q0.x j) ∧
      (∀ P', c.contactPoint s.q0 = .ok P' → P' - s.q0.x c.simulatedBodies.1 = P - x) ∧
      (∀ v a, contactImpulse3 s.nb c s.q0 v a = pairAbout3 s.nb c.simulatedBodies x y P (inFrame (c.basis s.nb s.q0 v) a)) ∧
      (∀ w, c.relVel s.nb s.q0 w - c.relVel s.nb s.q0 (fun _ => 0) = pairVelocity3 s.nb c.simulatedBodies x y P w) ∧
      (∀ w, c.evalNdotV s.nb s.q0 w = c.normal s.q0 ⬝ᵥ c.relVel s.nb s.q0 w) ∧
      (c.simulatedBodies.2 ≠ some c.simulatedBodies.1 →
        (∀ g, c.gradg s.nb s.q0 = .ok g → Contact3.column g = pairAbout3 s.nb c.simulatedBodies x y P (c.normal s.q0)) ∧
        ∀ t g, c.frictionColumn s.nb s.q0 t = .ok g → Contact3.column g = pairAbout3 s.nb c.simulatedBodies x y P t) := by
  cases hm with
  | bodyBody i j p n b hi hb hf =>
    have hj : j < s.nb := (List.getElem?_eq_some_iff.mp hb).1
    refine ⟨hi.lt, fun j' h => ?_, s.q0.x i, s.q0.x j, p, fun _ => ⟨rfl, fun j' h => ?_⟩,
      (by intro P' h; cases h; simp only [Contact3.mkBodyBody, Contact3.simulatedBodies]; abel),
      fun v a => ?_, fun w => ?_, fun w => rfl, fun hij => ?_⟩
    · cases h; exact hj
    · cases h; rfl
    · simp only [Contact3.mkBodyBody, contactImpulse3, Contact3.simulatedBodies, Contact3.evalH, pairAbout3]
      rw [rowImpulse3_full _ _ (s.q0.x i) p _ _ _ rfl, rowImpulse3_full _ _ (s.q0.x j) p _ _ _ rfl]
    · simp only [Contact3.mkBodyBody, Contact3.relVel, Contact3.simulatedBodies, pairVelocity3, rigidVelocity3, map_zero, LinearMap.zero_apply]
      abel
    · have hne : j ≠ i := fun h => hij (by subst h; rfl)
      refine ⟨fun g hg => ?_, fun t g hg => ?_⟩ <;> cases hg <;> exact column_four hi.lt hj hne rfl rfl
  | sphereSphere i j a b ra rb ha hb haf hbf hga hgb =>
    have hi : i < s.nb := (List.getElem?_eq_some_iff.mp ha).1
    have hj : j < s.nb := (List.getElem?_eq_some_iff.mp hb).1
    have h1 : crossProduct (s.q0.x i + (ra / (ra + rb)) • (s.q0.x j - s.q0.x i) - s.q0.x j) (normalized3 (s.q0.x i - s.q0.x j)) = 0 := by
      have he : s.q0.x i + (ra / (ra + rb)) • (s.q0.x j - s.q0.x i) - s.q0.x j = (1 - ra / (ra + rb)) • (s.q0.x i - s.q0.x j) := by
        apply vec3_ext <;> simp <;> ring
      rw [he]
      exact normalized3_cross _ _
    have h0 : crossProduct (s.q0.x i + (ra / (ra + rb)) • (s.q0.x j - s.q0.x i) - s.q0.x i) (normalized3 (s.q0.x i - s.q0.x j)) = 0 := by
      have he : s.q0.x i + (ra / (ra + rb)) • (s.q0.x j - s.q0.x i) - s.q0.x i = (-(ra / (ra + rb))) • (s.q0.x i - s.q0.x j) := by
        apply vec3_ext <;> simp <;> ring
      rw [he]
      exact normalized3_cross _ _
    refine ⟨hi, fun j' h => ?_, s.q0.x i, s.q0.x j, s.q0.x i + (ra / (ra + rb)) • (s.q0.x j - s.q0.x i), fun _ => ⟨rfl, fun j' h => ?_⟩,
      (by intro P' h; cases h; simp only [Contact3.simulatedBodies]),
      fun v a => ?_,
      fun w => ?_, fun w => normal_pair h0 h1, fun hij => ?_⟩
    · cases h; exact hj
    · cases h; rfl
    · simp only [contactImpulse3, Contact3.simulatedBodies, Contact3.evalH, pairAbout3]
      rw [sphereRows_eq _ _ h0, sphereRows_eq _ _ h1, rowImpulse3_full _ _ (s.q0.x i) _ _ _ _ rfl, rowImpulse3_full _ _ (s.q0.x j) _ _ _ _ rfl]
    · simp only [Contact3.relVel, Contact3.simulatedBodies, pairVelocity3, rigidVelocity3, map_zero, LinearMap.zero_apply]
      abel
    · have hne : j ≠ i := fun h => hij (by subst h; rfl)
      refine ⟨fun g hg => ?_, fun t g hg => ?_⟩ <;> cases hg
      · exact column_pair hi hj hne h0 h1
      · exact column_four hi hj hne rfl rfl
  | teleported u w a b ra rb ha hb haf hbf hga hgb hvia =>
    have hi : u.body < s.nb := (List.getElem?_eq_some_iff.mp ha).1
    have hj : w.body < s.nb := (List.getElem?_eq_some_iff.mp hb).1
    generalize imageCenter3 axis portals s.q0 u = x0
    generalize imageCenter3 axis portals s.q0 w = x1
    have e0 : (ra / (ra + rb)) • (x1 - x0) = x0 + (ra / (ra + rb)) • (x1 - x0) - x0 := by abel
    have e1 : (ra / (ra + rb) - 1) • (x1 - x0) = x0 + (ra / (ra + rb)) • (x1 - x0) - x1 := by
      rw [sub_smul, one_smul]; abel
    have h0 : crossProduct ((ra / (ra + rb)) • (x1 - x0)) (normalized3 (x0 - x1)) = 0 := by
      rw [← neg_sub x0 x1, smul_neg, ← neg_smul]
      exact normalized3_cross _ _
    have h1 : crossProduct ((ra / (ra + rb) - 1) • (x1 - x0)) (normalized3 (x0 - x1)) = 0 := by
      rw [← neg_sub x0 x1, smul_neg, ← neg_smul]
      exact normalized3_cross _ _
    refine ⟨hi, fun j' h => ?_, x0, x1, x0 + (ra / (ra + rb)) • (x1 - x0), fun h => h.elim,
      (by intro P' h; cases h; simp only [Contact3.mkTeleported, Contact3.simulatedBodies]; abel),
      fun v a => ?_,
      fun w => ?_, fun w => normal_pair h0 h1, fun hij => ?_⟩
    · cases h; exact hj
    · simp only [Contact3.mkTeleported, contactImpulse3, Contact3.simulatedBodies, Contact3.evalH, pairAbout3]
      rw [sphereRows_eq _ _ h0, sphereRows_eq _ _ h1, rowImpulse3_full _ _ x0 _ _ _ _ e0, rowImpulse3_full _ _ x1 _ _ _ _ e1]
    · simp only [Contact3.mkTeleported, Contact3.relVel, Contact3.simulatedBodies, pairVelocity3, rigidVelocity3, map_zero, LinearMap.zero_apply]
      rw [← e0, ← e1]
      abel
    · have hne : w.body ≠ u.body := fun h => hij (by simp only [Contact3.mkTeleported, Contact3.simulatedBodies, h])
      refine ⟨fun g hg => ?_, fun t g hg => ?_⟩ <;> cases hg
      · exact column_pair hi hj hne (e0 ▸ h0) (e1 ▸ h1)
      · exact column_four hi hj hne (congrArg (fun r => crossProduct r t) e0) (congrArg (fun r => crossProduct r t) e1)
  | kinematicTeleported u w a b ra rb ha hb haf hbf hga hgb hvia =>
    have hi : u.body < s.nb := (List.getElem?_eq_some_iff.mp ha).1
    generalize imageCenter3 axis portals s.q0 u = x0
    generalize imageCenter3 axis portals s.q0 w = x1
    have e0 : (-ra) • normalized3 (x0 - x1) = s.q0.x u.body - ra • normalized3 (x0 - x1) - s.q0.x u.body := by rw [neg_smul]; abel
    have h0 := smul_cross_self (normalized3 (x0 - x1)) ra
    refine ⟨hi, fun j' h => (by cases h), s.q0.x u.body, 0, s.q0.x u.body - ra • normalized3 (x0 - x1), fun h => h.elim,
      (by intro P' h; cases h; simp only [Contact3.simulatedBodies]),
      fun v a => ?_,
      fun w => ?_, fun w => ?_, fun hij => ?_⟩
    · simp only [contactImpulse3, Contact3.simulatedBodies, Contact3.evalH, pairAbout3]
      exact rowImpulse3_sphere _ _ _ _ _ _ _ rfl
    · simp only [Contact3.relVel, Contact3.simulatedBodies, pairVelocity3, rigidVelocity3, map_zero, LinearMap.zero_apply, Contact3.kinematicRelVel]
      rw [← e0]
      abel
    · have h := normal_one (n := normalized3 (x0 - x1)) (v := (w u.body)) (a := w (s.nb + u.body)) (u := 0) h0
      rw [sub_zero] at h
      exact h
    · refine ⟨fun g hg => ?_, fun t g hg => ?_⟩ <;> cases hg
      · exact column_one (e0 ▸ h0)
      · exact column_two hi (congrArg (fun r => crossProduct r t) e0) (Nat.add_comm _ _)
  | kinematicSphere i k a b ra rb ha hb haf hbf hga hgb =>
    have hi : i < s.nb := (List.getElem?_eq_some_iff.mp ha).1
    generalize hn : normalized3 (s.q0.x i - s.q0.x k) = n
    have e0 : (-ra) • n = s.q0.x i - ra • n - s.q0.x i := by rw [neg_smul]; abel
    have h0 := smul_cross_self n ra
    refine ⟨hi, fun j' h => (by cases h), s.q0.x i, 0, s.q0.x i - ra • n, fun _ => ⟨rfl, fun j' h => (by cases h)⟩,
      (by intro P' h; cases h; simp only [Contact3.simulatedBodies]),
      fun v a => ?_,
      fun w => ?_, fun w => ?_, fun hij => ?_⟩
    · simp only [contactImpulse3, Contact3.simulatedBodies, Contact3.evalH, pairAbout3]
      exact rowImpulse3_sphere _ _ _ _ _ _ _ rfl
    · simp only [Contact3.relVel, Contact3.simulatedBodies, pairVelocity3, rigidVelocity3, map_zero, LinearMap.zero_apply, Contact3.kinematicRelVel]
      rw [← e0]
      abel
    · have h := normal_one (n := n) (v := (w i)) (a := w (s.nb + i)) (u := 0) h0
      rw [sub_zero] at h
      exact h
    · refine ⟨fun g hg => ?_, fun t g hg => ?_⟩ <;> cases hg
      · exact column_one (e0 ▸ h0)
      · exact column_two hi (congrArg (fun r => crossProduct r t) e0) (Nat.add_comm _ _)
  | kinematicBody i k p n b hi hb hf =>
    refine ⟨hi.lt, fun j' h => (by cases h), s.q0.x i, 0, p, fun _ => ⟨rfl, fun j' h => (by cases h)⟩,
      (by intro P' h; cases h; simp only [Contact3.mkKinematicBody, Contact3.simulatedBodies]; abel),
      fun v a => ?_, fun w => ?_, fun w => rfl,
      fun hij => ?_⟩
    · simp only [Contact3.mkKinematicBody, contactImpulse3, Contact3.simulatedBodies, Contact3.evalH, pairAbout3]
      rw [rowImpulse3_full _ _ (s.q0.x i) p _ _ _ rfl]
    · simp only [Contact3.mkKinematicBody, Contact3.relVel, Contact3.simulatedBodies, pairVelocity3, rigidVelocity3, map_zero, LinearMap.zero_apply]
      abel
    · refine ⟨fun g hg => ?_, fun t g hg => ?_⟩ <;> cases hg <;> exact column_two hi.lt rfl (Nat.add_comm _ _)
  | planeSphere i k a r p ha haf hga hp =>
    have hi : i < s.nb := (List.getElem?_eq_some_iff.mp ha).1
    have e0 : (-r) • p.n = s.q0.x i - r • p.n - s.q0.x i := by rw [neg_smul]; abel
    have h0 := smul_cross_self p.n r
    refine ⟨hi, fun j' h => (by cases h), s.q0.x i, 0, s.q0.x i - r • p.n, fun _ => ⟨rfl, fun j' h => (by cases h)⟩,
      (by intro P' h; cases h; simp only [Contact3.simulatedBodies]),
      fun v a => ?_,
      fun w => ?_, fun w => normal_one h0, fun hij => ?_⟩
    · simp only [contactImpulse3, Contact3.simulatedBodies, Contact3.evalH, pairAbout3]
      exact rowImpulse3_sphere _ _ _ _ _ _ _ rfl
    · simp only [Contact3.relVel, Contact3.simulatedBodies, pairVelocity3, rigidVelocity3, map_zero, LinearMap.zero_apply]
      rw [← e0]
      abel
    · refine ⟨fun g hg => ?_, fun t g hg => ?_⟩ <;> cases hg
      · exact column_one (e0 ▸ h0)
      · exact column_two hi (congrArg (fun r => crossProduct r t) e0) rfl
  | planeBox i k corner a w p ha haf hga hp =>
    have hi : i < s.nb := (List.getElem?_eq_some_iff.mp ha).1
    generalize hr : s.q0.R i *ᵥ Contact3.boxCorner w corner = r
    have e0 : r = s.q0.x i + r - s.q0.x i := by abel
    refine ⟨hi, fun j' h => (by cases h), s.q0.x i, 0, s.q0.x i + r, fun _ => ⟨rfl, fun j' h => (by cases h)⟩,
      (by intro P' h; cases h; simp only [Contact3.mkPlaneBox, Contact3.simulatedBodies, hr]),
      fun v a => ?_, fun w => ?_, fun w => rfl,
      fun hij => ?_⟩
    · simp only [Contact3.mkPlaneBox, contactImpulse3, Contact3.simulatedBodies, Contact3.evalH, pairAbout3, hr]
      rw [rowImpulse3_full _ _ (s.q0.x i) _ _ _ _ e0]
    · simp only [Contact3.mkPlaneBox, Contact3.relVel, Contact3.simulatedBodies, pairVelocity3, rigidVelocity3, map_zero, LinearMap.zero_apply, hr]
      rw [← e0]
      abel
    · refine ⟨fun g hg => ?_, fun t g hg => ?_⟩ <;> cases hg <;> rw [hr] <;>
        exact column_two hi (congrArg (fun r => crossProduct r _) e0) (Nat.add_comm _ _)
  | planeBody i k a verts vtx p ha haf hga hv hp =>
    have hi : i < s.nb := (List.getElem?_eq_some_iff.mp ha).1
    refine ⟨hi, fun j' h => (by cases h), s.q0.x i, 0, s.q0.x i + s.q0.R i *ᵥ vtx, fun _ => ⟨rfl, fun j' h => (by cases h)⟩,
      (by intro P' h; cases h; simp only [Contact3.mkPlaneBody, Contact3.simulatedBodies]; abel),
      fun v a => ?_, fun w => ?_,
      fun w => rfl, fun hij => ?_⟩
    · simp only [Contact3.mkPlaneBody, contactImpulse3, Contact3.simulatedBodies, Contact3.evalH, pairAbout3]
      rw [rowImpulse3_full _ _ (s.q0.x i) _ _ _ _ rfl]
    · simp only [Contact3.mkPlaneBody, Contact3.relVel, Contact3.simulatedBodies, pairVelocity3, rigidVelocity3, map_zero, LinearMap.zero_apply]
      abel
    · refine ⟨fun g hg => ?_, fun t g hg => ?_⟩ <;> cases hg <;> exact column_two hi rfl (Nat.add_comm _ _)
  | cylinderSphere i k a r cyl ha haf hga hp =>
    have hi : i < s.nb := (List.getElem?_eq_some_iff.mp ha).1
    generalize hn : (Contact3.cylinderSphere i r cyl k).normal s.q0 = n
    have e0 : (-r) • n = s.q0.x i - r • n - s.q0.x i := by rw [neg_smul]; abel
    have h0 := smul_cross_self n r
    refine ⟨hi, fun j' h => (by cases h), s.q0.x i, 0, s.q0.x i - r • n, fun _ => ⟨rfl, fun j' h => (by cases h)⟩,
      (by intro P' h; cases h; simp only [Contact3.simulatedBodies, hn]),
      fun v a => ?_,
      fun w => ?_, fun w => ?_, fun hij => ?_⟩
    · simp only [contactImpulse3, Contact3.simulatedBodies, Contact3.evalH, pairAbout3]
      exact rowImpulse3_sphere _ _ _ _ _ _ _ hn
    · simp only [Contact3.relVel, Contact3.simulatedBodies, pairVelocity3, rigidVelocity3, map_zero, LinearMap.zero_apply, hn]
      rw [← e0]
      abel
    · simp only [Contact3.evalNdotV, Contact3.relVel, hn]
      exact normal_one h0
    · refine ⟨fun g hg => ?_, fun t g hg => ?_⟩ <;> cases hg <;> rw [hn]
      · exact column_one (e0 ▸ h0)
      · exact column_two hi (congrArg (fun r => crossProduct r t) e0) rfl
  | cylinderBody i k a verts vtx cyl ha haf hga hv hp =>
    have hi : i < s.nb := (List.getElem?_eq_some_iff.mp ha).1
    refine ⟨hi, fun j' h => (by cases h), s.q0.x i, 0, s.q0.x i + s.q0.R i *ᵥ vtx, fun _ => ⟨rfl, fun j' h => (by cases h)⟩, fun P' h => (by cases h),
      fun v a => ?_, fun w => ?_, fun w => rfl, fun hij => ?_⟩
    · simp only [Contact3.mkCylinderBody, contactImpulse3, Contact3.simulatedBodies, Contact3.evalH, pairAbout3]
      rw [rowImpulse3_full _ _ (s.q0.x i) _ _ _ _ rfl]
    · simp only [Contact3.mkCylinderBody, Contact3.relVel, Contact3.simulatedBodies, pairVelocity3, rigidVelocity3, map_zero, LinearMap.zero_apply]
      abel
    · exact ⟨fun g hg => (by cases hg), fun t g hg => (by cases hg)⟩

/-- **C59** For every contact, the normal velocity is the component of the relative velocity along the contact normal; the velocity that planes and
cylinders contribute is what is left when the simulated bodies are at rest, with the opposite sign; its normal part, where it is available on its own, is
the component of what is left along the normal. -/
theorem C59_normal_velocity (h : s.computeActiveSet3 axis portals = .ok cs) (hc : c ∈ cs) :
    (∀ v, c.evalNdotV s.nb s.q0 v = c.normal s.q0 ⬝ᵥ c.relVel s.nb s.q0 v) ∧
    c.kinematicRelVel s.q0 = -(c.relVel s.nb s.q0 fun _ => 0) ∧
    ∀ x, c.kinematicNormalRelVel s.q0 = .ok x → x = c.normal s.q0 ⬝ᵥ c.relVel s.nb s.q0 fun _ => 0 := by
  have hm := made_activeSet h hc
  obtain ⟨_, _, _, _, _, _, _, _, _, hn, _⟩ := made_shape hm
  refine ⟨hn, ?_⟩
  cases hm <;> refine ⟨?_, fun x hx => ?_⟩ <;> (try cases hx) <;>
    simp [Contact3.mkBodyBody, Contact3.mkTeleported, Contact3.mkKinematicBody, Contact3.mkPlaneBox, Contact3.mkPlaneBody, Contact3.mkCylinderBody,
      Contact3.kinematicRelVel, Contact3.relVel, Contact3.normal]

/-- **C59** For every contact, the power that the impulse with any coordinates in the contact frame delivers to the simulated bodies when they move with any
velocity is the product of the impulse and the relative velocity, less what planes and cylinders contribute to it: impulses and relative velocities are
measured with the same arms. -/
theorem C59_power (h : s.computeActiveSet3 axis portals = .ok cs) (hc : c ∈ cs) (v w : Blocks3) (a : Vec3) :
    power3 s.nb (contactImpulse3 s.nb c s.q0 v a) w =
      inFrame (c.basis s.nb s.q0 v) a ⬝ᵥ (c.relVel s.nb s.q0 w + c.kinematicRelVel s.q0) := by
  obtain ⟨hi, hj, x, y, P, _, _, himp, hvel, _, _⟩ := made_shape (made_activeSet h hc)
  rw [(C59_normal_velocity h hc).2.1, ← sub_eq_add_neg, himp, hvel]
  unfold pairAbout3 pairVelocity3
  cases hb : c.simulatedBodies.2 with
  | none => exact power3_about _ _ hi _ _ _ _
  | some j =>
    dsimp only
    rw [power3_sub, power3_about _ _ hi, power3_about _ _ (hj j hb), dotProduct_sub]

/-- **C59** The columns that the impact and friction solvers use, where a contact has them: the column of `N` is the unit impulse along the normal, and the
column of `D` for a direction is the unit impulse along that direction. For a contact that was not found through a portal, both act at the contact point,
on both bodies with opposite signs. -/
theorem C59_columns (h : s.computeActiveSet3 axis portals = .ok cs) (hc : c ∈ cs) (hij : c.simulatedBodies.2 ≠ some c.simulatedBodies.1) :
    (∀ g, c.gradg s.nb s.q0 = .ok g → (∀ v, Contact3.column g = contactImpulse3 s.nb c s.q0 v ![1, 0, 0]) ∧
      ∀ P, c.Direct → c.contactPoint s.q0 = .ok P → Contact3.column g = pairImpulse3 s.nb s.q0 c.simulatedBodies P (c.normal s.q0)) ∧
    ∀ t g, c.frictionColumn s.nb s.q0 t = .ok g → (∀ v a, inFrame (c.basis s.nb s.q0 v) a = t → Contact3.column g = contactImpulse3 s.nb c s.q0 v a) ∧
      ∀ P, c.Direct → c.contactPoint s.q0 = .ok P → Contact3.column g = pairImpulse3 s.nb s.q0 c.simulatedBodies P t := by
  obtain ⟨hi, hj, x, y, P, hdir, harm, himp, hvel, _, hcol⟩ := made_shape (made_activeSet h hc)
  have hpair : ∀ P' f, c.Direct → c.contactPoint s.q0 = .ok P' →
      pairAbout3 s.nb c.simulatedBodies x y P f = pairImpulse3 s.nb s.q0 c.simulatedBodies P' f := by
    intro P' f hd hP
    obtain ⟨hx, hy⟩ := hdir hd
    have hPP : P' = P := by
      have h1 := harm P' hP
      rw [hx] at h1
      exact sub_left_injective h1
    subst hPP
    unfold pairAbout3 pairImpulse3 pointImpulse3
    cases hb : c.simulatedBodies.2 with
    | none => rw [hx]
    | some j => rw [hx, hy j hb]
  refine ⟨fun g hg => ⟨fun v => ?_, fun P' hd hP => ?_⟩, fun t g hg => ⟨fun v a ha => ?_, fun P' hd hP => ?_⟩⟩
  · rw [(hcol hij).1 g hg, himp]
    congr 1
    simp [inFrame, Contact3.basis, contactBasis3]
  · rw [(hcol hij).1 g hg, hpair P' _ hd hP]
  · rw [(hcol hij).2 t g hg, himp, ha]
  · rw [(hcol hij).2 t g hg, hpair P' _ hd hP]

/-- **C59** The friction disk of a contact, where it has one: the columns for the directions of the disk in order, each with the velocity along that
direction that planes and cylinders contribute. -/
theorem C59_disk (v : Blocks3) (numSamples : Nat) {l : List (Contact3.Inserts × ℝ)} (hl : c.frictionDisk s.nb s.q0 v numSamples = .ok l) :
    l.length = numSamples ∧ ∀ k e, l[k]? = some e →
      c.frictionColumn s.nb s.q0 (frictionDisk (c.normal s.q0) (c.relVel s.nb s.q0 v) numSamples k) = .ok e.1 ∧
      e.2 = -(frictionDisk (c.normal s.q0) (c.relVel s.nb s.q0 v) numSamples k ⬝ᵥ c.kinematicRelVel s.q0) := by
  cases c <;> cases hl <;> refine ⟨by simp, fun k e he => ?_⟩ <;> rw [List.getElem?_map] at he <;>
    obtain ⟨k', hk, rfl⟩ := Option.map_eq_some_iff.mp he <;>
    obtain ⟨hk1, rfl⟩ := List.getElem?_eq_some_iff.mp hk <;> simp [Contact3.frictionColumn, Contact3.kinematicRelVel]

/-- **C59** The space that the program reserves for a column is exactly what is written there, and no entry is written twice or outside the column. -/
theorem C59_stencil (h : s.computeActiveSet3 axis portals = .ok cs) (hc : c ∈ cs) (hij : c.simulatedBodies.2 ≠ some c.simulatedBodies.1) :
    (∀ g, c.gradg s.nb s.q0 = .ok g → c.impactStencilSize = .ok (3 * g.length) ∧ (g.map Prod.fst).Nodup ∧ ∀ e ∈ g, e.1 < 2 * s.nb) ∧
    ∀ t g, c.frictionColumn s.nb s.q0 t = .ok g → c.frictionStencilSize = .ok (3 * g.length) ∧
      (g.map Prod.fst).Nodup ∧ ∀ e ∈ g, e.1 < 2 * s.nb := by
  obtain ⟨hi, hj, _⟩ := made_shape (made_activeSet h hc)
  refine ⟨fun g hg => ?_, fun t g hg => ?_⟩ <;> cases c <;> cases hg <;> simp [Contact3.simulatedBodies] at hi hj hij <;>
    simp [Contact3.impactStencilSize, Contact3.frictionStencilSize] <;> omega

/-- The centre that the program uses for an image is the one of the specification. -/
theorem imageCenter3_eq (i : Image) : imageCenter3 axis portals s.q0 i = i.centre3 axis portals s.q0 := by
  unfold imageCenter3 Image.centre3
  cases i.via with
  | none => rfl
  | some kp =>
    obtain ⟨k, plane⟩ := kp
    cases portals[k]? with
    | none => rfl
    | some p => cases plane <;> rfl

/-- **C59** Contacts through portals: each is between two images of spheres, at least one of them seen through a portal; the normal points from the second
image to the first. If both bodies are free, the impulse acts on both at the point between the images, and the relative velocity is the difference of the
velocities of the images at that point. If the second is scripted, the impulse acts on the first, at the point of its surface that faces the other
image, and the relative velocity is its velocity there. -/
theorem C59_teleported (h : s.computeActiveSet3 axis portals = .ok cs) (hc : c ∈ cs) (hd : ¬c.Direct) :
    ∃ (u w : Image) (a b : SceneBody3) (ra rb : ℝ), s.bodies[u.body]? = some a ∧ s.bodies[w.body]? = some b ∧ a.geometry = .sphere ra ∧
      b.geometry = .sphere rb ∧ a.fixed = false ∧ (u.via ≠ none ∨ w.via ≠ none) ∧
      c.simulatedBodies = (u.body, if b.fixed then none else some w.body) ∧
      c.bodyIndices = .ok (u.body, some w.body) ∧
      c.normal s.q0 = normalized3 (u.centre3 axis portals s.q0 - w.centre3 axis portals s.q0) ∧
      ∀ P, P = (if b.fixed then u.centre3 axis portals s.q0 - ra • c.normal s.q0 else
          u.centre3 axis portals s.q0 + (ra / (ra + rb)) • (w.centre3 axis portals s.q0 - u.centre3 axis portals s.q0)) →
        (∀ v f, contactImpulse3 s.nb c s.q0 v f = fun k =>
          impulseAbout3 s.nb (u.centre3 axis portals s.q0) u.body P (inFrame (c.basis s.nb s.q0 v) f) k -
            if b.fixed then 0 else impulseAbout3 s.nb (w.centre3 axis portals s.q0) w.body P (inFrame (c.basis s.nb s.q0 v) f) k) ∧
        ∀ v, c.relVel s.nb s.q0 v = rigidVelocity3 (u.centre3 axis portals s.q0) (v u.body) (v (s.nb + u.body)) P -
          if b.fixed then 0 else rigidVelocity3 (w.centre3 axis portals s.q0) (v w.body) (v (s.nb + w.body)) P := by
  cases made_activeSet h hc with
  | teleported u w a b ra rb ha hb haf hbf hga hgb hvia =>
    refine ⟨u, w, a, b, ra, rb, ha, hb, hga, hgb, haf, hvia, by rw [hbf]; rfl, rfl, ?_, ?_⟩
    · rw [imageCenter3_eq, imageCenter3_eq]
      rfl
    simp only [hbf, Bool.false_eq_true, if_false]
    rw [imageCenter3_eq, imageCenter3_eq]
    generalize u.centre3 axis portals s.q0 = x0
    generalize w.centre3 axis portals s.q0 = x1
    rintro P rfl
    have e0 : (ra / (ra + rb)) • (x1 - x0) = x0 + (ra / (ra + rb)) • (x1 - x0) - x0 := by abel
    have e1 : (ra / (ra + rb) - 1) • (x1 - x0) = x0 + (ra / (ra + rb)) • (x1 - x0) - x1 := by
      rw [sub_smul, one_smul]; abel
    have h0 : crossProduct ((ra / (ra + rb)) • (x1 - x0)) (normalized3 (x0 - x1)) = 0 := by
      rw [← neg_sub x0 x1, smul_neg, ← neg_smul]
      exact normalized3_cross _ _
    have h1 : crossProduct ((ra / (ra + rb) - 1) • (x1 - x0)) (normalized3 (x0 - x1)) = 0 := by
      rw [← neg_sub x0 x1, smul_neg, ← neg_smul]
      exact normalized3_cross _ _
    refine ⟨fun v f => ?_, fun v => ?_⟩
    · simp only [Contact3.mkTeleported, contactImpulse3, Contact3.simulatedBodies, Contact3.evalH]
      rw [sphereRows_eq _ _ h0, sphereRows_eq _ _ h1, rowImpulse3_full _ _ x0 _ _ _ _ e0, rowImpulse3_full _ _ x1 _ _ _ _ e1]
    · simp only [Contact3.mkTeleported, Contact3.relVel, rigidVelocity3]
      rw [← e0, ← e1]
      abel
  | kinematicTeleported u w a b ra rb ha hb haf hbf hga hgb hvia =>
    refine ⟨u, w, a, b, ra, rb, ha, hb, hga, hgb, haf, hvia, by rw [hbf]; rfl, rfl, ?_, ?_⟩
    · rw [imageCenter3_eq, imageCenter3_eq]
      rfl
    simp only [hbf, if_true, Contact3.normal]
    rw [imageCenter3_eq, imageCenter3_eq]
    generalize u.centre3 axis portals s.q0 = x0
    generalize w.centre3 axis portals s.q0 = x1
    rintro P rfl
    refine ⟨fun v f => ?_, fun v => ?_⟩
    · simp only [contactImpulse3, Contact3.simulatedBodies, Contact3.evalH, sub_zero]
      exact rowImpulse3_sphere _ _ _ _ _ _ _ rfl
    · simp only [Contact3.relVel, Contact3.kinematicRelVel, rigidVelocity3, sub_zero, sub_sub_cancel_left, neg_smul]
  | _ => exact absurd trivial hd

/-! ## C60: momentum -/

/-- **C60** A contact that says that it conserves linear (angular) momentum does: whatever its impulse is, the sum over all bodies does not change. -/
theorem C60_conserves (h : s.computeActiveSet3 axis portals = .ok cs) (hc : c ∈ cs) (v : Blocks3) (a : Vec3) :
    (c.conservesTranslationalMomentum = true → totalLinear3 s.nb (contactImpulse3 s.nb c s.q0 v a) = 0) ∧
    (c.conservesAngularMomentumUnderImpact = true → totalAngular3 s.nb s.q0 (contactImpulse3 s.nb c s.q0 v ![a 0, 0, 0]) = 0) ∧
    (c.conservesAngularMomentumUnderImpactAndFriction = true → totalAngular3 s.nb s.q0 (contactImpulse3 s.nb c s.q0 v a) = 0) := by
  have hm := made_activeSet h hc
  obtain ⟨hi, hj, x, y, P, hdir, _, himp, _⟩ := made_shape hm
  have hang : c.Direct → c.simulatedBodies.2 ≠ none → ∀ f, totalAngular3 s.nb s.q0 (contactImpulse3 s.nb c s.q0 v f) = 0 := by
    intro hd hb f
    obtain ⟨hx, hy⟩ := hdir hd
    rw [himp]
    unfold pairAbout3
    cases hb' : c.simulatedBodies.2 with
    | none => exact absurd hb' hb
    | some j =>
      dsimp only
      rw [totalAngular3_sub, totalAngular3_about _ _ hi, totalAngular3_about _ _ (hj j hb'), hx, hy j hb', sub_self, sub_self, sub_self]
  refine ⟨fun hf => ?_, fun hf => ?_, fun hf => ?_⟩
  · rw [himp]
    unfold pairAbout3
    cases hb : c.simulatedBodies.2 with
    | none => cases c <;> simp [Contact3.conservesTranslationalMomentum, Contact3.simulatedBodies] at hf hb
    | some j =>
      dsimp only
      rw [totalLinear3_sub, totalLinear3_about _ _ hi, totalLinear3_about _ _ (hj j hb), sub_self]
  · apply hang <;> cases c <;> simp [Contact3.conservesAngularMomentumUnderImpact, Contact3.simulatedBodies, Contact3.Direct] at hf ⊢
  · apply hang <;> cases c <;> simp [Contact3.conservesAngularMomentumUnderImpactAndFriction, Contact3.simulatedBodies, Contact3.Direct] at hf ⊢

/-- The momenta after the impulses of a list of contacts: each with its coordinates in the contact frame for the velocities `v` -/
noncomputable def afterContacts3 (nb : Nat) (q : Pose3) (v m : Blocks3) (l : List (Contact3 × Vec3)) : Blocks3 :=
  fun k => m k + (l.map fun e => contactImpulse3 nb e.1 q v e.2 k).sum

theorem totalLinear3_add (nb : Nat) (f g : Blocks3) : totalLinear3 nb (fun k => f k + g k) = totalLinear3 nb f + totalLinear3 nb g := by
  simp [totalLinear3, Finset.sum_add_distrib]

theorem totalAngular3_add (nb : Nat) (q : Pose3) (f g : Blocks3) :
    totalAngular3 nb q (fun k => f k + g k) = totalAngular3 nb q f + totalAngular3 nb q g := by
  unfold totalAngular3
  rw [← Finset.sum_add_distrib]
  refine Finset.sum_congr rfl fun b _ => ?_
  rw [map_add]
  abel_nf

/-- **C60** A step in which every contact says that it conserves momentum, conserves it, whatever the impulses are. -/
theorem C60_step (h : s.computeActiveSet3 axis portals = .ok cs) (v : Blocks3) (l : List (Contact3 × Vec3)) (hl : ∀ e ∈ l, e.1 ∈ cs) (m : Blocks3) :
    ((∀ e ∈ l, e.1.conservesTranslationalMomentum = true) → totalLinear3 s.nb (afterContacts3 s.nb s.q0 v m l) = totalLinear3 s.nb m) ∧
    ((∀ e ∈ l, e.1.conservesAngularMomentumUnderImpact = true ∧ e.2 1 = 0 ∧ e.2 2 = 0) →
      totalAngular3 s.nb s.q0 (afterContacts3 s.nb s.q0 v m l) = totalAngular3 s.nb s.q0 m) ∧
    ((∀ e ∈ l, e.1.conservesAngularMomentumUnderImpactAndFriction = true) →
      totalAngular3 s.nb s.q0 (afterContacts3 s.nb s.q0 v m l) = totalAngular3 s.nb s.q0 m) := by
  induction l generalizing m with
  | nil =>
    have hnil : afterContacts3 s.nb s.q0 v m [] = m := by
      funext k
      simp [afterContacts3]
    simp [hnil]
  | cons e l ih =>
    have hstep : afterContacts3 s.nb s.q0 v m (e :: l) = afterContacts3 s.nb s.q0 v (fun k => m k + contactImpulse3 s.nb e.1 s.q0 v e.2 k) l := by
      funext k
      simp [afterContacts3, add_assoc]
    obtain ⟨c1, c2, c3⟩ := C60_conserves h (hl e (by simp)) v e.2
    obtain ⟨i1, i2, i3⟩ := ih (fun e' he' => hl e' (by simp [he'])) (fun k => m k + contactImpulse3 s.nb e.1 s.q0 v e.2 k)
    rw [hstep]
    refine ⟨fun hf => ?_, fun hf => ?_, fun hf => ?_⟩
    · rw [i1 fun e' he' => hf e' (by simp [he']), totalLinear3_add, c1 (hf e (by simp)), add_zero]
    · obtain ⟨h1, h2, h3⟩ := hf e (by simp)
      have he : ![e.2 0, 0, 0] = e.2 := vec3_ext rfl (by simp [h2]) (by simp [h3])
      rw [he] at c2
      rw [i2 fun e' he' => hf e' (by simp [he']), totalAngular3_add, c2 h1, add_zero]
    · rw [i3 fun e' he' => hf e' (by simp [he']), totalAngular3_add, c3 (hf e (by simp)), add_zero]

/-- **C60** A contact with a plane, a cylinder or a scripted body changes the total linear momentum by its impulse. -/
theorem C60_scripted (h : s.computeActiveSet3 axis portals = .ok cs) (hc : c ∈ cs) (hf : c.conservesTranslationalMomentum = false) (v : Blocks3)
    (a : Vec3) : totalLinear3 s.nb (contactImpulse3 s.nb c s.q0 v a) = inFrame (c.basis s.nb s.q0 v) a := by
  obtain ⟨hi, _, x, y, P, _, _, himp, _⟩ := made_shape (made_activeSet h hc)
  rw [himp]
  unfold pairAbout3
  cases hb : c.simulatedBodies.2 with
  | none => exact totalLinear3_about _ _ hi _ _ _
  | some j => cases c <;> simp [Contact3.conservesTranslationalMomentum, Contact3.simulatedBodies] at hf hb

/-- **C60** A contact of two free bodies through a portal changes the total angular momentum by the torque of its impulse over the distance by which the
portal moved the images: it says that it does not conserve it, and does not unless the torques cancel. -/
theorem C60_portal (h : s.computeActiveSet3 axis portals = .ok cs) (hc : c ∈ cs) (hd : ¬c.Direct) :
    c.conservesAngularMomentumUnderImpact = false ∧ c.conservesAngularMomentumUnderImpactAndFriction = false ∧
    (c.conservesTranslationalMomentum = true → ∃ u w : Image, c.simulatedBodies = (u.body, some w.body) ∧ ∀ v a,
      totalAngular3 s.nb s.q0 (contactImpulse3 s.nb c s.q0 v a) =
        crossProduct ((w.centre3 axis portals s.q0 - s.q0.x w.body) - (u.centre3 axis portals s.q0 - s.q0.x u.body)) (inFrame (c.basis s.nb s.q0 v) a)) := by
  refine ⟨?_, ?_, fun hf => ?_⟩
  · cases c <;> first | rfl | exact absurd trivial hd
  · cases c <;> first | rfl | exact absurd trivial hd
  · obtain ⟨u, w, a, b, ra, rb, ha, hb, _, _, _, _, hbod, _, _, hP⟩ := C59_teleported h hc hd
    have hbf : b.fixed = false := by
      by_contra hcon
      rw [if_pos (by simpa using hcon)] at hbod
      cases c <;> simp [Contact3.conservesTranslationalMomentum, Contact3.simulatedBodies] at hf hbod
    rw [hbf] at hbod
    refine ⟨u, w, hbod, fun v f => ?_⟩
    have hu : u.body < s.nb := (List.getElem?_eq_some_iff.mp ha).1
    have hw : w.body < s.nb := (List.getElem?_eq_some_iff.mp hb).1
    rw [(hP _ rfl).1 v f]
    simp only [hbf, Bool.false_eq_true, if_false]
    rw [totalAngular3_sub, totalAngular3_about _ _ hu, totalAngular3_about _ _ hw, ← LinearMap.sub_apply, ← map_sub]
    congr 2
    abel

end Scisim
