import Verif.Lemmas.RigidContacts2D
/-!
# C55 in the plane: contacts between rigid bodies
-/

namespace Scisim

open Step2

variable {junk : ℝ → ℤ} {s : Step2} {portals : List (PlanarPortal ℝ)} {cs : List Contact2} {c : Contact2}

/-! ## C55: what a contact measures and what it does -/

/-- **C55** (partial). For every contact that was not found through a portal, the relative velocity is the velocity, at the contact point, of the first
body minus that of what it touches. Missing: a box that touches a moving plane, for which it is false (`C55_false_moving_plane`). -/
theorem C55_relative_velocity_partial (h : s.computeActiveSet2 junk portals = .ok cs) (hc : c ∈ cs) (hd : c.Direct) (hr : c.PlaneAtRest s) (v : Dofs) :
    c.relVel s.q0 v = bodyVelocity s.q0 v c.simulatedBodies.1 (c.contactPoint s.q0) - partnerVelocity s v c (c.contactPoint s.q0) := by
  cases made_activeSet h hc with
  | bodyBody i j p n hi hj =>
    ext <;> simp [Contact2.mkBodyBody, Contact2.relVel, Contact2.contactPoint, Contact2.simulatedBodies, partnerVelocity, bodyVelocity, rigidVelocity,
      seg2, ang2] <;> ring
  | circleCircle i j ra rb hi hj =>
    ext <;> simp [Contact2.relVel, Contact2.contactPoint, Contact2.simulatedBodies, partnerVelocity, bodyVelocity, rigidVelocity, seg2, ang2] <;> ring
  | kinematicCircle i k r n hi _ =>
    ext <;> simp [Contact2.relVel, Contact2.kinematicRelVel, Contact2.contactPoint, Contact2.simulatedBodies, partnerVelocity,
      bodyVelocity, rigidVelocity, seg2, ang2, Contact2.movingPointVelocity] <;> ring
  | planeCircle i k r p hi hp =>
    ext <;> simp [Contact2.relVel, Contact2.kinematicRelVel, Contact2.contactPoint, Contact2.simulatedBodies, partnerVelocity, hp,
      bodyVelocity, rigidVelocity, seg2, ang2, Contact2.movingPointVelocity] <;> ring
  | planeBody i k arm p hi hp =>
    obtain ⟨h1, h2⟩ := hr p hp
    ext <;> simp [Contact2.relVel, Contact2.kinematicRelVel, Contact2.contactPoint, Contact2.simulatedBodies, partnerVelocity, hp, h1, h2,
      bodyVelocity, rigidVelocity, seg2, ang2] <;> ring
  | teleported i j x0 x1 ra rb hi hj => exact hd.elim
  | kick i j x0 x1 ra rb k hi hj => exact hd.elim

/-- **C55** For every contact, the normal velocity is the component of the relative velocity along the contact normal; the velocity that scripted
geometry and sliding portals contribute is what is left when the simulated bodies are at rest; its normal part, where it is available on its own, is the
component of that along the normal. -/
theorem C55_normal_velocity (h : s.computeActiveSet2 junk portals = .ok cs) (hc : c ∈ cs) (v : Dofs) :
    c.evalNdotV s.q0 v = c.normal.x * (c.relVel s.q0 v).x + c.normal.y * (c.relVel s.q0 v).y ∧
    c.kinematicRelVel s.q0 = -(c.relVel s.q0 fun _ => 0) ∧
    ∀ x, c.kinematicNormalRelVel s.q0 = .ok x → x = c.normal.x * (c.relVel s.q0 fun _ => 0).x + c.normal.y * (c.relVel s.q0 fun _ => 0).y := by
  cases made_activeSet h hc with
  | bodyBody i j p n hi hj =>
    refine ⟨rfl, by ext <;> simp [Contact2.mkBodyBody, Contact2.relVel, Contact2.kinematicRelVel, seg2, ang2], fun x hx => ?_⟩
    simp [Contact2.mkBodyBody, Contact2.kinematicNormalRelVel] at hx
  | circleCircle i j ra rb hi hj =>
    have hx := normalized_cross (seg2 s.q0 i - seg2 s.q0 j) (ra / (ra + rb))
    have hy := normalized_cross (seg2 s.q0 i - seg2 s.q0 j) 1
    generalize hn : (seg2 s.q0 i - seg2 s.q0 j).normalized = n at hx hy
    simp only [V2.cross, V2.smul_x, V2.smul_y, V2.sub_x, V2.sub_y] at hx hy
    refine ⟨?_, by ext <;> simp [Contact2.relVel, Contact2.kinematicRelVel, seg2, ang2], fun x hx => ?_⟩
    · simp only [Contact2.evalNdotV, Contact2.normal, Contact2.relVel, V2.dot, V2.add_x, V2.add_y, V2.sub_x, V2.sub_y, V2.smul_x, V2.smul_y]
      linear_combination (ang2 v i - ang2 v j) * hx + ang2 v j * hy
    · simp only [Contact2.kinematicNormalRelVel] at hx
      cases hx
      simp [Contact2.normal, Contact2.relVel, seg2, ang2]
  | kinematicCircle i k r n hi _ =>
    refine ⟨?_, by ext <;> simp [Contact2.relVel, seg2, ang2], fun x hx => ?_⟩
    · simp only [Contact2.evalNdotV, Contact2.normal, Contact2.relVel, V2.dot, V2.add_x, V2.add_y, V2.sub_x, V2.sub_y, V2.smul_x, V2.smul_y]
      ring
    · simp only [Contact2.kinematicNormalRelVel] at hx
      cases hx
      simp [Contact2.normal, Contact2.relVel, seg2, ang2, V2.dot]
      ring
  | planeCircle i k r p hi hp =>
    refine ⟨?_, by ext <;> simp [Contact2.relVel, seg2, ang2], fun x hx => ?_⟩
    · simp only [Contact2.evalNdotV, Contact2.normal, Contact2.relVel, V2.dot, V2.add_x, V2.add_y, V2.sub_x, V2.sub_y, V2.smul_x, V2.smul_y]
      ring
    · simp only [Contact2.kinematicNormalRelVel] at hx
      cases hx
      simp [Contact2.normal, Contact2.relVel, seg2, ang2, V2.dot]
      ring
  | planeBody i k arm p hi hp =>
    refine ⟨rfl, by ext <;> simp [Contact2.relVel, Contact2.kinematicRelVel, seg2, ang2], fun x hx => ?_⟩
    simp [Contact2.kinematicNormalRelVel] at hx
  | teleported i j x0 x1 ra rb hi hj =>
    have hx := normalized_cross (x0 - x1) (ra / (ra + rb))
    have hy := normalized_cross (x0 - x1) 1
    generalize hn : (x0 - x1).normalized = n at hx hy
    simp only [V2.cross, V2.smul_x, V2.smul_y, V2.sub_x, V2.sub_y] at hx hy
    refine ⟨?_, by ext <;> simp [Contact2.mkTeleported, Contact2.relVel, Contact2.kinematicRelVel, seg2, ang2], fun x hx => ?_⟩
    · simp only [Contact2.mkTeleported, hn, Contact2.evalNdotV, Contact2.normal, Contact2.relVel, V2.dot, V2.add_x, V2.add_y, V2.sub_x, V2.sub_y, V2.smul_x,
        V2.smul_y]
      linear_combination (ang2 v i - ang2 v j) * hx + ang2 v j * hy
    · simp only [Contact2.mkTeleported, Contact2.kinematicNormalRelVel] at hx
      cases hx
      simp [Contact2.mkTeleported, Contact2.normal, Contact2.relVel, seg2, ang2]
  | kick i j x0 x1 ra rb k hi hj =>
    have hx := normalized_cross (x0 - x1) (ra / (ra + rb))
    have hy := normalized_cross (x0 - x1) 1
    generalize hn : (x0 - x1).normalized = n at hx hy
    simp only [V2.cross, V2.smul_x, V2.smul_y, V2.sub_x, V2.sub_y] at hx hy
    refine ⟨?_, by ext <;> simp [Contact2.mkKick, Contact2.relVel, Contact2.kinematicRelVel, seg2, ang2], fun x hx => ?_⟩
    · simp only [Contact2.mkKick, hn, Contact2.evalNdotV, Contact2.normal, Contact2.relVel, V2.dot, V2.add_x, V2.add_y, V2.sub_x, V2.sub_y, V2.smul_x,
        V2.smul_y]
      linear_combination (ang2 v i - ang2 v j) * hx + ang2 v j * hy
    · simp only [Contact2.mkKick, Contact2.kinematicNormalRelVel] at hx
      cases hx
      simp [Contact2.mkKick, Contact2.normal, Contact2.relVel, seg2, ang2, V2.dot]
      ring

/-- **C55** For every contact that was not found through a portal, the impulse `alpha n + beta t` of the contact acts at the contact point: on the first
body, and with the opposite sign on the second one when it is simulated. -/
theorem C55_impulse (h : s.computeActiveSet2 junk portals = .ok cs) (hc : c ∈ cs) (hd : c.Direct) (alpha beta : ℝ) :
    contactImpulse c s.q0 alpha beta = fun k =>
      pointImpulse s.q0 c.simulatedBodies.1 (c.contactPoint s.q0) (alpha • c.normal + beta • c.tangent) k -
        match c.simulatedBodies.2 with
        | some j => pointImpulse s.q0 j (c.contactPoint s.q0) (alpha • c.normal + beta • c.tangent) k
        | none => 0 := by
  cases made_activeSet h hc with
  | bodyBody i j p n hi hj =>
    funext k
    simp only [Contact2.mkBodyBody, contactImpulse, Contact2.simulatedBodies, Contact2.evalH, Contact2.contactPoint, Contact2.normal, Contact2.tangent,
      pointImpulse]
    rw [rowImpulse_eq i n ⟨-n.y, n.x⟩ (seg2 s.q0 i) (p - seg2 s.q0 i + seg2 s.q0 i), rowImpulse_eq j n ⟨-n.y, n.x⟩ (seg2 s.q0 j) (p - seg2 s.q0 i + seg2 s.q0 i)] <;>
      simp [V2.cross, seg2]
  | circleCircle i j ra rb hi hj =>
    have hx := normalized_cross (seg2 s.q0 i - seg2 s.q0 j) (ra / (ra + rb))
    have hy := normalized_cross (seg2 s.q0 i - seg2 s.q0 j) 1
    generalize hn : (seg2 s.q0 i - seg2 s.q0 j).normalized = n at hx hy
    simp only [V2.cross, V2.smul_x, V2.smul_y, V2.sub_x, V2.sub_y] at hx hy
    funext k
    simp only [contactImpulse, Contact2.simulatedBodies, Contact2.evalH, Contact2.contactPoint, Contact2.normal, Contact2.tangent,
      pointImpulse]
    simp only [seg2] at hx hy
    rw [rowImpulse_eq i n ⟨-n.y, n.x⟩ (seg2 s.q0 i) (seg2 s.q0 i + (ra / (ra + rb)) • (seg2 s.q0 j - seg2 s.q0 i)),
      rowImpulse_eq j n ⟨-n.y, n.x⟩ (seg2 s.q0 j) (seg2 s.q0 i + (ra / (ra + rb)) • (seg2 s.q0 j - seg2 s.q0 i))] <;>
      simp [V2.cross, seg2]
    · linear_combination hx - hy
    · linear_combination hx
  | kinematicCircle i k r n hi _ =>
    funext k
    simp only [contactImpulse, Contact2.simulatedBodies, Contact2.evalH, Contact2.contactPoint, Contact2.normal, Contact2.tangent, pointImpulse]
    rw [rowImpulse_eq i n ⟨-n.y, n.x⟩ (seg2 s.q0 i) (seg2 s.q0 i - r • n)]
    · simp [seg2]
    · simp [seg2]; ring
    · simp [seg2, V2.cross]
  | planeCircle i k r p hi hp =>
    funext k
    simp only [contactImpulse, Contact2.simulatedBodies, Contact2.evalH, Contact2.contactPoint, Contact2.normal, Contact2.tangent, pointImpulse]
    rw [rowImpulse_eq i p.n ⟨-p.n.y, p.n.x⟩ (seg2 s.q0 i) (seg2 s.q0 i - r • p.n)]
    · simp [seg2]
    · simp [seg2]; ring
    · simp [seg2, V2.cross]
  | planeBody i k arm p hi hp =>
    funext k
    simp only [contactImpulse, Contact2.simulatedBodies, Contact2.evalH, Contact2.contactPoint, Contact2.normal, Contact2.tangent, pointImpulse]
    rw [rowImpulse_eq i p.n ⟨-p.n.y, p.n.x⟩ (seg2 s.q0 i) (seg2 s.q0 i + (rotation2D (ang2 s.q0 i)).mulVec arm)] <;>
      simp [seg2, V2.cross, ang2]
  | teleported i j x0 x1 ra rb hi hj => exact hd.elim
  | kick i j x0 x1 ra rb k hi hj => exact hd.elim

/-- **C55** For every contact, the power that the impulse `alpha n + beta t` of the contact delivers to the simulated bodies when they move with any
velocity `v` is the product of the impulse and the relative velocity, less what scripted geometry contributes to it: impulses and relative velocities are
measured with the same arms. -/
theorem C55_power (h : s.computeActiveSet2 junk portals = .ok cs) (hc : c ∈ cs) (v : Dofs) (alpha beta : ℝ) :
    power s.bodies.length (contactImpulse c s.q0 alpha beta) v =
      (alpha • c.normal + beta • c.tangent).dot (c.relVel s.q0 v + c.kinematicRelVel s.q0) := by
  cases made_activeSet h hc with
  | bodyBody i j p n hi hj =>
    simp only [Contact2.mkBodyBody, contactImpulse, Contact2.simulatedBodies, Contact2.evalH]
    rw [power_sub, power_row _ _ hi.lt, power_row _ _ hj.lt]
    simp [Contact2.normal, Contact2.tangent, Contact2.relVel, Contact2.kinematicRelVel, V2.dot, V2.cross, seg2, ang2]
    ring
  | circleCircle i j ra rb hi hj =>
    have hx := normalized_cross (seg2 s.q0 i - seg2 s.q0 j) (ra / (ra + rb))
    have hy := normalized_cross (seg2 s.q0 i - seg2 s.q0 j) 1
    generalize hn : (seg2 s.q0 i - seg2 s.q0 j).normalized = n at hx hy
    simp only [V2.cross, V2.smul_x, V2.smul_y, V2.sub_x, V2.sub_y, seg2] at hx hy
    simp only [contactImpulse, Contact2.simulatedBodies, Contact2.evalH]
    rw [power_sub, power_row _ _ hi.lt, power_row _ _ hj.lt]
    simp [Contact2.normal, Contact2.tangent, Contact2.relVel, Contact2.kinematicRelVel, V2.dot, V2.cross, seg2, ang2]
    linear_combination alpha * ((v (3 * i + 2) - v (3 * j + 2)) * hx + v (3 * j + 2) * hy)
  | kinematicCircle i k r n hi _ =>
    simp only [contactImpulse, Contact2.simulatedBodies, Contact2.evalH]
    rw [power_row _ _ hi.lt]
    simp [Contact2.normal, Contact2.tangent, Contact2.relVel, V2.dot, V2.cross, seg2, ang2]
    ring
  | planeCircle i k r p hi hp =>
    simp only [contactImpulse, Contact2.simulatedBodies, Contact2.evalH]
    rw [power_row _ _ hi.lt]
    simp [Contact2.normal, Contact2.tangent, Contact2.relVel, V2.dot, V2.cross, seg2, ang2]
    ring
  | planeBody i k arm p hi hp =>
    simp only [contactImpulse, Contact2.simulatedBodies, Contact2.evalH]
    rw [power_row _ _ hi.lt]
    simp [Contact2.normal, Contact2.tangent, Contact2.relVel, V2.dot, V2.cross, seg2, ang2]
    ring
  | teleported i j x0 x1 ra rb hi hj =>
    have hx := normalized_cross (x0 - x1) (ra / (ra + rb))
    have hy := normalized_cross (x0 - x1) 1
    generalize hn : (x0 - x1).normalized = n at hx hy
    simp only [V2.cross, V2.smul_x, V2.smul_y, V2.sub_x, V2.sub_y] at hx hy
    simp only [Contact2.mkTeleported, hn, contactImpulse, Contact2.simulatedBodies, Contact2.evalH]
    rw [power_sub, power_row _ _ hi.lt, power_row _ _ hj.lt]
    simp [Contact2.normal, Contact2.tangent, Contact2.relVel, Contact2.kinematicRelVel, V2.dot, V2.cross, seg2, ang2]
    linear_combination alpha * ((v (3 * i + 2) - v (3 * j + 2)) * hx + v (3 * j + 2) * hy)
  | kick i j x0 x1 ra rb k hi hj =>
    have hx := normalized_cross (x0 - x1) (ra / (ra + rb))
    have hy := normalized_cross (x0 - x1) 1
    generalize hn : (x0 - x1).normalized = n at hx hy
    simp only [V2.cross, V2.smul_x, V2.smul_y, V2.sub_x, V2.sub_y] at hx hy
    simp only [Contact2.mkKick, hn, contactImpulse, Contact2.simulatedBodies, Contact2.evalH]
    rw [power_sub, power_row _ _ hi.lt, power_row _ _ hj.lt]
    simp [Contact2.normal, Contact2.tangent, Contact2.relVel, Contact2.kinematicRelVel, V2.dot, V2.cross, seg2, ang2]
    linear_combination alpha * ((v (3 * i + 2) - v (3 * j + 2)) * hx + v (3 * j + 2) * hy)

/-- **C55** The columns that the impact and friction solvers use, where a contact has them: the column of `N` is the unit impulse along the normal, and
the column of `D` for a direction `t` is a unit impulse along `t` at the contact point, on both bodies with opposite signs. -/
theorem C55_columns (h : s.computeActiveSet2 junk portals = .ok cs) (hc : c ∈ cs) (hij : c.simulatedBodies.2 ≠ some c.simulatedBodies.1) :
    (∀ g, c.gradg = .ok g → g = contactImpulse c s.q0 1 0) ∧
    ∀ t g, c.frictionColumn s.q0 t = .ok g → ∃ j, c.simulatedBodies.2 = some j ∧ g = fun k =>
      pointImpulse s.q0 c.simulatedBodies.1 (c.contactPoint s.q0) t k - pointImpulse s.q0 j (c.contactPoint s.q0) t k := by
  have two : ∀ (i j : Nat) (n t r0 r1 : V2 ℝ), j ≠ i →
      insertRow (insertRow (insertRow (insertRow (fun _ => 0) (3 * i) n.x) (3 * i + 1) n.y) (3 * j) (-n.x)) (3 * j + 1) (-n.y) =
      fun k => rowImpulse i (⟨n, 0⟩, ⟨t, r0.cross t⟩) 1 0 k - rowImpulse j (⟨n, 0⟩, ⟨t, r1.cross t⟩) 1 0 k := by
    intro i j n t r0 r1 hne
    funext k
    simp only [insertRow, rowImpulse]
    by_cases h1 : k = 3 * j + 1
    · rw [if_pos h1, if_neg (by omega), if_neg (by omega), if_neg (by omega), if_neg (by omega), if_pos h1]; simp
    rw [if_neg h1]
    by_cases h2 : k = 3 * j
    · rw [if_pos h2, if_neg (by omega), if_neg (by omega), if_neg (by omega), if_pos h2]; simp
    rw [if_neg h2]
    by_cases h3 : k = 3 * i + 1
    · rw [if_pos h3, if_neg (by omega), if_pos h3, if_neg h2, if_neg h1, if_neg (by omega)]; simp
    rw [if_neg h3]
    by_cases h4 : k = 3 * i
    · rw [if_pos h4, if_pos h4, if_neg h2, if_neg h1, if_neg (by omega)]; simp
    rw [if_neg h4, if_neg h4, if_neg h3, if_neg h2, if_neg h1]
    simp
  have six : ∀ (i j : Nat) (x y P t : V2 ℝ), j ≠ i →
      insertRow (insertRow (insertRow (insertRow (insertRow (insertRow (fun _ => 0) (3 * i) t.x) (3 * i + 1) t.y) (3 * i + 2) ((P - x).cross t))
        (3 * j) (-t.x)) (3 * j + 1) (-t.y)) (3 * j + 2) (-((P - y).cross t)) =
      fun k => impulseAbout x i P t k - impulseAbout y j P t k := by
    intro i j x y P t hne
    funext k
    simp only [insertRow, impulseAbout]
    by_cases h0 : k = 3 * j + 2
    · rw [if_pos h0, if_neg (by omega), if_neg (by omega), if_neg (by omega), if_neg (by omega), if_neg (by omega), if_pos h0]
      simp [V2.cross]
    rw [if_neg h0]
    by_cases h1 : k = 3 * j + 1
    · rw [if_pos h1, if_neg (by omega), if_neg (by omega), if_neg (by omega), if_neg (by omega), if_pos h1]; simp
    rw [if_neg h1]
    by_cases h2 : k = 3 * j
    · rw [if_pos h2, if_neg (by omega), if_neg (by omega), if_neg (by omega), if_pos h2]; simp
    rw [if_neg h2]
    by_cases h5 : k = 3 * i + 2
    · rw [if_pos h5, if_neg (by omega), if_neg (by omega), if_pos h5, if_neg h2, if_neg h1, if_neg h0]
      simp [V2.cross]
    rw [if_neg h5]
    by_cases h3 : k = 3 * i + 1
    · rw [if_pos h3, if_neg (by omega), if_pos h3, if_neg h2, if_neg h1, if_neg h0]; simp
    rw [if_neg h3]
    by_cases h4 : k = 3 * i
    · rw [if_pos h4, if_pos h4, if_neg h2, if_neg h1, if_neg h0]; simp
    rw [if_neg h4, if_neg h4, if_neg h3, if_neg h5, if_neg h2, if_neg h1, if_neg h0]
    simp
  have one : ∀ (i : Nat) (n t r : V2 ℝ), insertRow (insertRow (fun _ => 0) (3 * i) n.x) (3 * i + 1) n.y =
      rowImpulse i (⟨n, 0⟩, ⟨t, r.cross t⟩) 1 0 := by
    intro i n t r
    funext k
    simp only [insertRow, rowImpulse]
    by_cases h3 : k = 3 * i + 1
    · rw [if_pos h3, if_neg (by omega), if_pos h3]; simp
    rw [if_neg h3]
    by_cases h4 : k = 3 * i
    · rw [if_pos h4, if_pos h4]; simp
    rw [if_neg h4, if_neg h4, if_neg h3]
    simp
  cases made_activeSet h hc with
  | bodyBody i j p n hi hj =>
    exact ⟨fun g hg => (by cases hg), fun t g hg => (by cases hg)⟩
  | circleCircle i j ra rb hi hj =>
    have hne : j ≠ i := by
      intro he
      apply hij
      simp [Contact2.simulatedBodies, he]
    refine ⟨fun g hg => ?_, fun t g hg => ⟨j, rfl, ?_⟩⟩
    · cases hg
      exact two _ _ _ _ _ _ hne
    · cases hg
      exact six _ _ _ _ _ _ hne
  | kinematicCircle i k r n hi _ =>
    refine ⟨fun g hg => ?_, fun t g hg => (by cases hg)⟩
    cases hg
    exact one _ _ _ _
  | planeCircle i k r p hi hp =>
    refine ⟨fun g hg => ?_, fun t g hg => (by cases hg)⟩
    cases hg
    exact one _ _ _ _
  | planeBody i k arm p hi hp =>
    exact ⟨fun g hg => (by cases hg), fun t g hg => (by cases hg)⟩
  | teleported i j x0 x1 ra rb hi hj =>
    have hne : j ≠ i := by
      intro he
      apply hij
      simp [Contact2.mkTeleported, Contact2.simulatedBodies, he]
    refine ⟨fun g hg => ?_, fun t g hg => (by cases hg)⟩
    cases hg
    exact two _ _ _ _ _ _ hne
  | kick i j x0 x1 ra rb k hi hj =>
    have hne : j ≠ i := by
      intro he
      apply hij
      simp [Contact2.mkKick, Contact2.simulatedBodies, he]
    refine ⟨fun g hg => ?_, fun t g hg => (by cases hg)⟩
    cases hg
    exact two _ _ _ _ _ _ hne

/-- **C55** Contacts through portals: each is between two images of circles, at least one of them seen through a portal, the normal points from the
second image to the first, and the impulse acts on both at the point between the images. Unless both images are seen through sliding portals, the
relative velocity is the difference of the velocities of the images at that point, which include the motion of the portals. -/
theorem C55_teleported (h : s.computeActiveSet2 junk portals = .ok cs) (hc : c ∈ cs) (hd : ¬c.Direct) :
    ∃ (u w : Image) (a b : Body2) (ra rb : ℝ), s.bodies[u.body]? = some a ∧ s.bodies[w.body]? = some b ∧ a.geometry = .circle ra ∧ b.geometry = .circle rb ∧
      (u.via ≠ none ∨ w.via ≠ none) ∧ c.simulatedBodies = (u.body, some w.body) ∧
      c.normal = (u.centre junk portals s.q0 - w.centre junk portals s.q0).normalized ∧
      ∀ P, P = u.centre junk portals s.q0 + (ra / (ra + rb)) • (w.centre junk portals s.q0 - u.centre junk portals s.q0) →
        (∀ alpha beta, contactImpulse c s.q0 alpha beta = fun k =>
          impulseAbout (u.centre junk portals s.q0) u.body P (alpha • c.normal + beta • c.tangent) k -
            impulseAbout (w.centre junk portals s.q0) w.body P (alpha • c.normal + beta • c.tangent) k) ∧
        ((u.slides portals = none ∨ w.slides portals = none) →
          ∀ v, c.relVel s.q0 v = imageVelocity junk portals s.q0 v u P - imageVelocity junk portals s.q0 v w P) := by
  obtain ⟨⟨u, w⟩, hu, hw, hvia, l, hl, hcl⟩ := teleported_data h hc hd
  dsimp only at hu hw hvia
  have hvel : ∀ v i P, imageVelocity junk portals s.q0 v i P =
      rigidVelocity (i.centre junk portals s.q0) ⟨v (3 * i.body), v (3 * i.body + 1)⟩ (v (3 * i.body + 2)) P + portalVelocity portals i :=
    fun _ _ _ => rfl
  have himp : ∀ (i j : Nat) (x0 x1 : V2 ℝ) (ra rb alpha beta : ℝ),
      (fun k => rowImpulse i (⟨(x0 - x1).normalized, 0⟩, ⟨⟨-(x0 - x1).normalized.y, (x0 - x1).normalized.x⟩,
        ((ra / (ra + rb)) • (x1 - x0)).cross ⟨-(x0 - x1).normalized.y, (x0 - x1).normalized.x⟩⟩) alpha beta k -
        rowImpulse j (⟨(x0 - x1).normalized, 0⟩, ⟨⟨-(x0 - x1).normalized.y, (x0 - x1).normalized.x⟩,
        ((ra / (ra + rb) - 1) • (x1 - x0)).cross ⟨-(x0 - x1).normalized.y, (x0 - x1).normalized.x⟩⟩) alpha beta k) =
      fun k => impulseAbout x0 i (x0 + (ra / (ra + rb)) • (x1 - x0))
          (alpha • (x0 - x1).normalized + beta • (⟨-(x0 - x1).normalized.y, (x0 - x1).normalized.x⟩ : V2 ℝ)) k -
        impulseAbout x1 j (x0 + (ra / (ra + rb)) • (x1 - x0))
          (alpha • (x0 - x1).normalized + beta • (⟨-(x0 - x1).normalized.y, (x0 - x1).normalized.x⟩ : V2 ℝ)) k := by
    intro i j x0 x1 ra rb alpha beta
    have hx := normalized_cross (x0 - x1) (ra / (ra + rb))
    have hy := normalized_cross (x0 - x1) 1
    generalize hn : (x0 - x1).normalized = n at hx hy
    simp only [V2.cross, V2.smul_x, V2.smul_y, V2.sub_x, V2.sub_y] at hx hy
    funext k
    rw [rowImpulse_eq i n ⟨-n.y, n.x⟩ x0 (x0 + (ra / (ra + rb)) • (x1 - x0)), rowImpulse_eq j n ⟨-n.y, n.x⟩ x1 (x0 + (ra / (ra + rb)) • (x1 - x0))]
    · simp
      linear_combination hx - hy
    · simp [V2.cross]
      ring
    · simp
      linear_combination hx
    · simp [V2.cross]
  unfold dispatchTeleported at hl
  dsimp only at hl
  split at hl
  · rename_i a b ha hb
    split at hl
    · cases hl
    split at hl
    · rename_i ra rb hga hgb
      split at hl
      · split at hl
        · rename_i p hs
          cases hl
          rw [List.mem_singleton] at hcl
          subst hcl
          refine ⟨u, w, a, b, ra, rb, ha, hb, hga, hgb, hvia, rfl, ?_, ?_⟩
          · simp [Contact2.mkKick, Contact2.normal, imageCenter2_eq]
          rintro P rfl
          refine ⟨fun alpha beta => ?_, fun hns v => ?_⟩
          · simp only [Contact2.mkKick, contactImpulse, Contact2.simulatedBodies, Contact2.evalH, Contact2.normal, Contact2.tangent, imageCenter2_eq]
            exact himp _ _ _ _ _ _ _ _
          · rcases hns with hns | hns
            · rw [hvel, hvel, portalVelocity_static hns, portalVelocity_slides hw hb hs]
              ext <;> simp [Contact2.mkKick, Contact2.relVel, imageCenter2_eq, rigidVelocity, seg2, ang2] <;> ring
            · rw [hns] at hs
              cases hs
        · rename_i hws
          split at hl
          · rename_i p hs
            cases hl
            rw [List.mem_singleton] at hcl
            subst hcl
            refine ⟨u, w, a, b, ra, rb, ha, hb, hga, hgb, hvia, rfl, ?_, ?_⟩
            · simp [Contact2.mkKick, Contact2.normal, imageCenter2_eq]
            rintro P rfl
            refine ⟨fun alpha beta => ?_, fun hns v => ?_⟩
            · simp only [Contact2.mkKick, contactImpulse, Contact2.simulatedBodies, Contact2.evalH, Contact2.normal, Contact2.tangent, imageCenter2_eq]
              exact himp _ _ _ _ _ _ _ _
            · rw [hvel, hvel, portalVelocity_static hws, portalVelocity_slides hu ha hs]
              ext <;> simp [Contact2.mkKick, Contact2.relVel, imageCenter2_eq, rigidVelocity, seg2, ang2] <;> ring
          · rename_i hus
            cases hl
            rw [List.mem_singleton] at hcl
            subst hcl
            refine ⟨u, w, a, b, ra, rb, ha, hb, hga, hgb, hvia, rfl, ?_, ?_⟩
            · simp [Contact2.mkTeleported, Contact2.normal, imageCenter2_eq]
            rintro P rfl
            refine ⟨fun alpha beta => ?_, fun hns v => ?_⟩
            · simp only [Contact2.mkTeleported, contactImpulse, Contact2.simulatedBodies, Contact2.evalH, Contact2.normal, Contact2.tangent,
                imageCenter2_eq]
              exact himp _ _ _ _ _ _ _ _
            · rw [hvel, hvel, portalVelocity_static hws, portalVelocity_static hus]
              ext <;> simp [Contact2.mkTeleported, Contact2.relVel, imageCenter2_eq, rigidVelocity, seg2, ang2] <;> ring
      · cases hl; cases hcl
    · cases hl
  · cases hl

/-- C55: the velocity that a sliding portal adds is the velocity of what is seen through it: when the offset of a portal with opposite planes moves on by
`v h`, the image of a point moves by `h` times that velocity (up to whole periods along the plane). -/
theorem C55_portal_velocity (p : PlanarPortal ℝ) (ht : p.planeB.t = -p.planeA.t) (hu : p.planeA.t.x ^ 2 + p.planeA.t.y ^ 2 = 1) (x : V2 ℝ) (h : ℝ) :
    (∃ m : ℤ, ({ p with dx := p.dx + p.v * h } : PlanarPortal ℝ).teleportPointThroughPlaneA junk x =
      p.teleportPointThroughPlaneA junk x + h • kickOf p false + (2 * m * p.bounds) • p.planeB.t) ∧
    ∃ m : ℤ, ({ p with dx := p.dx + p.v * h } : PlanarPortal ℝ).teleportPointThroughPlaneB junk x =
      p.teleportPointThroughPlaneB junk x + h • kickOf p true + (2 * m * p.bounds) • p.planeA.t := by
  unfold PlanarPortal.teleportPointThroughPlaneA PlanarPortal.teleportPointThroughPlaneB kickOf
  dsimp only
  constructor
  · set m1 := PlanarPortal.repeatX junk (p.planeA.t.dot ((p.dx + p.v * h) • p.planeA.t + p.planeA.x - x)) p.bounds
    set m2 := PlanarPortal.repeatX junk (p.planeA.t.dot (p.dx • p.planeA.t + p.planeA.x - x)) p.bounds
    refine ⟨m2 - m1, ?_⟩
    rw [ht]
    ext <;> simp [V2.dot]
    · linear_combination -p.v * h * p.planeA.t.x * hu
    · linear_combination -p.v * h * p.planeA.t.y * hu
  · set m1 := PlanarPortal.repeatX junk (p.planeB.t.dot ((p.dx + p.v * h) • p.planeB.t + p.planeB.x - x)) p.bounds
    set m2 := PlanarPortal.repeatX junk (p.planeB.t.dot (p.dx • p.planeB.t + p.planeB.x - x)) p.bounds
    refine ⟨m2 - m1, ?_⟩
    rw [ht]
    ext <;> simp [V2.dot]
    · linear_combination p.v * h * p.planeA.t.x * hu
    · linear_combination p.v * h * p.planeA.t.y * hu

/-! ### Examples and a counterexample -/

/-- A disc of radius 1 that rests on another one, on the ground -/
noncomputable def stackOfDiscs : Step2 where
  bodies := [⟨.circle 1, false⟩, ⟨.circle 1, false⟩]
  planes := [⟨⟨0, 0⟩, ⟨0, 1⟩, ⟨2, 0⟩, 0⟩]
  q0 := fun k => if k = 1 then 1 else if k = 4 then 3 else 0
  q1 := fun k => if k = 1 then 1 else if k = 4 then 3 else 0
  v := fun _ => 0

/-- A box of half width 1 that rests on ground that moves to the right with velocity 1 -/
noncomputable def boxOnBelt : Step2 where
  bodies := [⟨.box ⟨1, 1⟩, false⟩]
  planes := [⟨⟨0, 0⟩, ⟨0, 1⟩, ⟨1, 0⟩, 0⟩]
  q0 := fun k => if k = 1 then 1 else 0
  q1 := fun k => if k = 1 then 1 else 0
  v := fun _ => 0

end Scisim
