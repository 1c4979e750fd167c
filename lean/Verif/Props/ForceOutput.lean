import Verif.Lemmas.ForceOutput
import Verif.Props.RigidContactList2D
import Verif.Props.RigidContactList3D
import Verif.Props.BallContacts
/-!
# C69: the files of contact forces
-/

namespace Scisim

open Matrix Forces

/-! ## 3D rigid bodies -/

section Space

open Step3

variable {axis : Vec3 → Vec3 → Vec3} {s : Step3} {portals : List Portal3} {cs : List Contact3} {c : Contact3}
variable {v : Blocks3} {alpha beta : List ℝ} {dt : ℝ} {f : File Vec3}

/-- The contact is that of a mesh with a cylinder. -/
def Contact3.MeshInCylinder : Contact3 → Prop
  | .cylinderBody _ _ _ => True
  | _ => False

/-- What a file has to name as the second partner of a contact: a body by its index, a plane or cylinder number `k` by `-2 - k` -/
def Contact3.partnerCode : Contact3 → ℤ
  | .bodyBody _ j _ _ _ | .sphereSphere _ j _ _ _ _ | .teleported _ j _ _ _ | .kinematicSphere _ _ _ j _ _ _ _ | .kinematicBody _ j _ _ => j
  | .planeSphere _ _ _ k | .planeBox _ _ _ k | .planeBody _ _ _ k | .cylinderSphere _ _ _ k => -2 - (k : ℤ)
  | .cylinderBody _ _ _ => -1

theorem Contact3.indices_ok (q : Pose3) (hc : ¬c.MeshInCylinder) : collisionIndices (c.view q) = .ok ((c.simulatedBodies.1 : ℤ), c.partnerCode) := by
  cases c <;> first | exact absurd trivial hc | (simp [collisionIndices, Contact3.view, Contact3.bodyIndices, Contact3.staticIndex, Outcome.bind,
    Contact3.simulatedBodies, Contact3.partnerCode] <;> ring)

theorem Contact3.indices_exit (q : Pose3) (hc : c.MeshInCylinder) : collisionIndices (c.view q) = .exit := by
  cases c <;> first | exact absurd hc id | rfl

theorem Contact3.point_ok (q : Pose3) (hc : ¬c.MeshInCylinder) : ∃ P, (c.view q).point = .ok P := by
  cases c <;> first | exact absurd trivial hc | exact ⟨_, rfl⟩

theorem Contact3.normal_ok (q : Pose3) (hc : ¬c.MeshInCylinder) : (c.view q).normal = .ok (c.normal q) := by
  cases c <;> first | exact absurd trivial hc | rfl

theorem Contact3.bases_get (nb : Nat) (q : Pose3) (v : Blocks3) {k : Nat} (hk : cs[k]? = some c) :
    (contactBases nb q v cs)[3 * k]? = some (c.basis nb q v).1 ∧ (contactBases nb q v cs)[3 * k + 1]? = some (c.basis nb q v).2.1 ∧
      (contactBases nb q v cs)[3 * k + 2]? = some (c.basis nb q v).2.2 := bases3_get (fun c : Contact3 => c.basis nb q v) cs k c hk

theorem Contact3.basis_normal (nb : Nat) (q : Pose3) (v : Blocks3) : (c.basis nb q v).1 = c.normal q := rfl

/-- **C69** What is written in the columns of a contact: the two partners, the contact point, the contact normal, and the impulse with the contact's
coordinates in its frame. -/
theorem C69_rb3d_columns (he : Contact3.exportForces s.nb s.q0 v cs alpha beta dt = .ok f) :
    f.Regular ∧ f.count = cs.length ∧ ∀ k c, cs[k]? = some c → ∃ P a b1 b2, alpha[k]? = some a ∧ beta[2 * k]? = some b1 ∧ beta[2 * k + 1]? = some b2 ∧
      c.contactPoint s.q0 = .ok P ∧
      f.column k = some ⟨c.simulatedBodies.1, c.partnerCode, P, c.normal s.q0, inFrame (c.basis s.nb s.q0 v) ![a, b1, b2]⟩ := by
  obtain ⟨h1, h2, h3⟩ := export_ok he
  rw [List.length_map] at h2
  refine ⟨h1, h2, fun k c hk => ?_⟩
  obtain ⟨i, P, n, g, hcol, hi, hP, hn, hg⟩ := h3 k (c.view s.q0) (by rw [List.getElem?_map, hk]; rfl)
  obtain ⟨a, b1, b2, n', t1, t2, ha, hb1, hb2, hn', ht1, ht2, rfl⟩ := forceColumn3 hg
  obtain ⟨e1, e2, e3⟩ := Contact3.bases_get s.nb s.q0 v hk
  rw [hn] at e1 hn'
  rw [ht1] at e2
  rw [ht2] at e3
  cases hn'
  cases e1
  cases e2
  cases e3
  have hm : ¬c.MeshInCylinder := fun hm => by rw [Contact3.indices_exit s.q0 hm] at hi; cases hi
  rw [Contact3.indices_ok s.q0 hm] at hi
  cases hi
  refine ⟨P, a, b1, b2, ha, hb1, hb2, hP, ?_⟩
  rw [hcol]
  simp [inFrame, Contact3.basis_normal]

/-- **C69** The file is written exactly when no mesh touches a cylinder and there are enough impulses. -/
theorem C69_rb3d_written : (∃ f, Contact3.exportForces s.nb s.q0 v cs alpha beta dt = .ok f) ↔
    (∀ c ∈ cs, ¬c.MeshInCylinder) ∧ cs.length ≤ alpha.length ∧ 2 * cs.length ≤ beta.length := by
  constructor
  · rintro ⟨f, he⟩
    obtain ⟨_, _, h3⟩ := C69_rb3d_columns he
    refine ⟨fun c hc hm => ?_, ?_, ?_⟩
    · obtain ⟨k, hk⟩ := List.getElem?_of_mem hc
      obtain ⟨P, _, _, _, _, _, _, hP, _⟩ := h3 k c hk
      cases c <;> first | exact hm | cases hP
    · by_contra hlt
      obtain ⟨_, _, _, _, ha, _⟩ := h3 alpha.length _ (List.getElem?_eq_getElem (by omega))
      simp at ha
    · by_contra hlt
      obtain ⟨_, _, _, _, _, hb, hb', _⟩ := h3 (cs.length - 1) _ (List.getElem?_eq_getElem (by omega))
      obtain ⟨hb1, -⟩ := List.getElem?_eq_some_iff.mp hb
      obtain ⟨hb2, -⟩ := List.getElem?_eq_some_iff.mp hb'
      omega
  · rintro ⟨hm, ha, hb⟩
    unfold Contact3.exportForces Forces.exportForces
    split
    · exact ⟨_, rfl⟩
    rw [List.length_map]
    have hview : ∀ d ∈ cs.map (Contact3.view s.q0), ∃ c ∈ cs, d = c.view s.q0 := fun d hd => by
      obtain ⟨c, hc, rfl⟩ := List.mem_map.mp hd
      exact ⟨c, hc, rfl⟩
    obtain ⟨is, h1⟩ := forEach_all (f := collisionIndices) (l := cs.map (Contact3.view s.q0)) fun d hd => by
      obtain ⟨c, hc, rfl⟩ := hview d hd
      exact ⟨_, Contact3.indices_ok s.q0 (hm c hc)⟩
    obtain ⟨ps, h2⟩ := forEach_all (f := fun c : View Vec3 => c.point) (l := cs.map (Contact3.view s.q0)) fun d hd => by
      obtain ⟨c, hc, rfl⟩ := hview d hd
      exact Contact3.point_ok s.q0 (hm c hc)
    obtain ⟨ns, h3⟩ := forEach_all (f := fun con => entry (Contact3.contactBases s.nb s.q0 v cs) (3 * con)) (l := List.range cs.length) fun k hk =>
      ⟨_, entry_some (Contact3.bases_get s.nb s.q0 v (List.getElem?_eq_getElem (List.mem_range.mp hk))).1⟩
    obtain ⟨gs, h4⟩ := forEach_all (f := forceColumn 3 (Contact3.contactBases s.nb s.q0 v cs) alpha beta) (l := List.range cs.length) fun k hk => by
      have hk := List.mem_range.mp hk
      obtain ⟨e1, e2, e3⟩ := Contact3.bases_get s.nb s.q0 v (List.getElem?_eq_getElem hk)
      unfold forceColumn
      rw [show List.range (3 - 1) = [0, 1] from by decide]
      simp only [List.foldl, entry_some e1, entry_some (List.getElem?_eq_getElem (show k < alpha.length by omega)), Outcome.bind,
        entry_some (List.getElem?_eq_getElem (show (3 - 1) * k + 0 < beta.length by omega)), entry_some (show (Contact3.contactBases s.nb s.q0 v cs)[3 * k + 0 + 1]? = _ from e2),
        entry_some (List.getElem?_eq_getElem (show (3 - 1) * k + 1 < beta.length by omega)), entry_some (show (Contact3.contactBases s.nb s.q0 v cs)[3 * k + 1 + 1]? = _ from e3)]
      exact ⟨_, rfl⟩
    rw [h1, h2, h3, h4]
    exact ⟨_, rfl⟩

/-- what the second partner of a column does, in terms of the contact -/
theorem partner_term (h : s.computeActiveSet3 axis portals = .ok cs) (hc : c ∈ cs) :
    (∀ j, c.simulatedBodies.2 = some j → (0 ≤ c.partnerCode ∧ s.scripted c.partnerCode.toNat = false) ∧ c.partnerCode.toNat = j) ∧
      (c.simulatedBodies.2 = none → ¬(0 ≤ c.partnerCode ∧ s.scripted c.partnerCode.toNat = false)) := by
  have hfree : ∀ {j : Nat} {b : SceneBody3}, s.bodies[j]? = some b → b.fixed = false → s.scripted j = false := by
    intro j b hb hbf
    simp [Step3.scripted, hb, hbf]
  cases made_activeSet h hc with
  | bodyBody i j p n b hi hb hf => exact ⟨fun j' hj => by cases hj; exact ⟨⟨Int.natCast_nonneg _, hfree hb hf⟩, rfl⟩, fun h => by cases h⟩
  | sphereSphere i j a b ra rb ha hb haf hbf hga hgb => exact ⟨fun j' hj => by cases hj; exact ⟨⟨Int.natCast_nonneg _, hfree hb hbf⟩, rfl⟩, fun h => by cases h⟩
  | teleported u w a b ra rb ha hb haf hbf hga hgb hvia => exact ⟨fun j' hj => by cases hj; exact ⟨⟨Int.natCast_nonneg _, hfree hb hbf⟩, rfl⟩, fun h => by cases h⟩
  | kinematicSphere i k a b ra rb ha hb haf hbf hga hgb =>
    refine ⟨fun j hj => by (cases hj), fun _ hn => ?_⟩
    have := hn.2
    simp [Contact3.partnerCode, Step3.scripted, hb, hbf] at this
  | kinematicBody i k p n b hi hb hf =>
    refine ⟨fun j hj => by (cases hj), fun _ hn => ?_⟩
    have := hn.2
    simp [Contact3.mkKinematicBody, Contact3.partnerCode, Step3.scripted, hb, hf] at this
  | kinematicTeleported u w a b ra rb ha hb haf hbf hga hgb hvia =>
    refine ⟨fun j hj => by (cases hj), fun _ hn => ?_⟩
    have := hn.2
    simp [Contact3.partnerCode, Step3.scripted, hb, hbf] at this
  | planeSphere i k a r p ha haf hga hp => exact ⟨fun j hj => by (cases hj), fun _ hn => by have := hn.1; simp only [Contact3.partnerCode] at this; omega⟩
  | planeBox i k corner a w p ha haf hga hp =>
    exact ⟨fun j hj => by (cases hj), fun _ hn => by have := hn.1; simp only [Contact3.mkPlaneBox, Contact3.partnerCode] at this; omega⟩
  | planeBody i k a verts vtx p ha haf hga hv hp =>
    exact ⟨fun j hj => by (cases hj), fun _ hn => by have := hn.1; simp only [Contact3.mkPlaneBody, Contact3.partnerCode] at this; omega⟩
  | cylinderSphere i k a r cyl ha haf hga hp => exact ⟨fun j hj => by (cases hj), fun _ hn => by have := hn.1; simp only [Contact3.partnerCode] at this; omega⟩
  | cylinderBody i k a verts vtx cyl ha haf hga hv hp =>
    exact ⟨fun j hj => by (cases hj), fun _ hn => by have := hn.1; simp [Contact3.mkCylinderBody, Contact3.partnerCode] at this⟩

/-- One column, read by someone who knows the centres of the bodies, gives what the contact does. -/
theorem column_impulse3 (h : s.computeActiveSet3 axis portals = .ok cs) (hc : c ∈ cs) {P n : Vec3} (hP : c.contactPoint s.q0 = .ok P)
    (a : Vec3) (b : Nat) (hb : c.Direct ∨ b < s.nb) :
    Column.impulse3 s.nb s.q0.x s.scripted ⟨c.simulatedBodies.1, c.partnerCode, P, n, inFrame (c.basis s.nb s.q0 v) a⟩ b =
      contactImpulse3 s.nb c s.q0 v a b := by
  obtain ⟨hi, hj, x, y, P', hdir, harm, himp, -, -, -⟩ := made_shape (made_activeSet h hc)
  obtain ⟨hp1, hp2⟩ := partner_term h hc
  have hlin : ∀ (x y : Vec3) (i : Nat) (P Q g : Vec3), b < s.nb → impulseAbout3 s.nb x i P g b = impulseAbout3 s.nb y i Q g b := by
    intro x y i P Q g hb
    unfold impulseAbout3
    by_cases h1 : b = i
    · rw [if_pos h1, if_pos h1]
    · rw [if_neg h1, if_neg h1, if_neg (by omega), if_neg (by omega)]
  rw [himp]
  unfold Column.impulse3 pairAbout3
  dsimp only
  rw [Int.toNat_natCast]
  have hPP : c.Direct → P = P' := fun hd => by
    have h1 := harm P hP
    rw [(hdir hd).1] at h1
    exact sub_left_injective h1
  cases hs : c.simulatedBodies.2 with
  | none =>
    rw [if_neg (hp2 hs), sub_zero]
    rcases hb with hd | hb
    · rw [(hdir hd).1, hPP hd]
    · exact hlin _ _ _ _ _ _ hb
  | some j =>
    obtain ⟨h1, h2⟩ := hp1 j hs
    rw [if_pos h1, h2]
    dsimp only
    rcases hb with hd | hb
    · rw [(hdir hd).1, (hdir hd).2 j hs, hPP hd]
    · rw [hlin _ x _ _ P' _ hb, hlin _ y j _ P' _ hb]

/-- **C69** (partial). A file with the forces of a step with friction has one column for every contact. Someone who reads it and knows where the centres of the
bodies are and which bodies are scripted finds what the contacts do to the linear momenta of all bodies, and, if no contact is through a portal, also to the
angular momenta. Missing: the numbers are impulses and not forces (`C69_false_dt`); the turning of bodies that touch through a portal;
a friction disk with directions of its own (`C69_false_linear`). -/
theorem C69_rb3d_partial (h : s.computeActiveSet3 axis portals = .ok cs)
    (he : Contact3.exportForces s.nb s.q0 v cs alpha beta dt = .ok f) :
    f.Regular ∧ f.count = cs.length ∧ ∀ b, (b < s.nb ∨ ∀ c ∈ cs, c.Direct) →
      f.total (fun col => col.impulse3 s.nb s.q0.x s.scripted b) = response3 s.nb s.q0 v cs alpha beta b := by
  obtain ⟨h1, h2, h3⟩ := C69_rb3d_columns he
  refine ⟨h1, h2, fun b hb => total_eq h2 _ fun k c hk => ?_⟩
  obtain ⟨P, a, b1, b2, ha, hb1, hb2, hP, hcol⟩ := h3 k c hk
  have hc := List.mem_of_getElem? hk
  refine ⟨_, hcol, ?_⟩
  rw [hk, ha, hb1, hb2]
  exact column_impulse3 h hc hP _ b (hb.elim Or.inr fun hd => Or.inl (hd c hc))

/-- **C69** (partial) The same for a step without friction. -/
theorem C69_rb3d_impacts_partial (h : s.computeActiveSet3 axis portals = .ok cs)
    (he : Contact3.exportImpacts s.q0 cs alpha dt = .ok f) :
    f.Regular ∧ f.count = cs.length ∧ (∀ k c, cs[k]? = some c → ∃ P a, alpha[k]? = some a ∧ c.contactPoint s.q0 = .ok P ∧
        f.column k = some ⟨c.simulatedBodies.1, c.partnerCode, P, c.normal s.q0, a • c.normal s.q0⟩) ∧
      ∀ b, (b < s.nb ∨ ∀ c ∈ cs, c.Direct) →
        f.total (fun col => col.impulse3 s.nb s.q0.x s.scripted b) = response3 s.nb s.q0 v cs alpha (List.replicate (2 * cs.length) 0) b := by
  obtain ⟨h1, h2, h3⟩ := exportImpacts_ok he
  rw [List.length_map] at h2
  have hcol : ∀ k c, cs[k]? = some c → ∃ P a, alpha[k]? = some a ∧ c.contactPoint s.q0 = .ok P ∧
        f.column k = some ⟨c.simulatedBodies.1, c.partnerCode, P, c.normal s.q0, a • c.normal s.q0⟩ := by
    intro k c hk
    obtain ⟨i, P, n, a, hcol, hi, hP, hn, ha⟩ := h3 k (c.view s.q0) (by rw [List.getElem?_map, hk]; rfl)
    have hm : ¬c.MeshInCylinder := fun hm => by rw [Contact3.indices_exit s.q0 hm] at hi; cases hi
    rw [Contact3.indices_ok s.q0 hm] at hi
    rw [Contact3.normal_ok s.q0 hm] at hn
    cases hi
    cases hn
    exact ⟨P, a, ha, hP, hcol⟩
  refine ⟨h1, h2, hcol, fun b hb => total_eq h2 _ fun k c hk => ?_⟩
  obtain ⟨P, a, ha, hP, hcol⟩ := hcol k c hk
  have hc := List.mem_of_getElem? hk
  have hlt := (List.getElem?_eq_some_iff.mp hk).1
  refine ⟨_, hcol, ?_⟩
  rw [hk, ha, List.getElem?_replicate_of_lt (by omega), List.getElem?_replicate_of_lt (by omega)]
  have hf : a • c.normal s.q0 = inFrame (c.basis s.nb s.q0 v) ![a, 0, 0] := by simp [inFrame, Contact3.basis_normal]
  rw [hf]
  exact column_impulse3 h hc hP _ b (hb.elim Or.inr fun hd => Or.inl (hd c hc))

/-- The product of the matrices of the solvers with the impulses is what the contacts do together. -/
theorem response3_eq (h : s.computeActiveSet3 axis portals = .ok cs) (hself : ∀ c ∈ cs, c.simulatedBodies.2 ≠ some c.simulatedBodies.1)
    (ha : alpha.length = cs.length) (hb : beta.length = 2 * cs.length) {N D : List Blocks3} (hN : Contact3.computeN s.nb s.q0 cs = .ok N)
    (hD : Contact3.smoothFrictionBasis s.nb s.q0 cs (Contact3.contactBases s.nb s.q0 v cs) = .ok D) (b : Nat) :
    mulColumns N alpha b + mulColumns D beta b = response3 s.nb s.q0 v cs alpha beta b := by
  obtain ⟨nl, ne⟩ := forEach_ok hN
  unfold Contact3.smoothFrictionBasis at hD
  obtain ⟨l, hl, hD⟩ := Outcome.bind_ok_iff.mp hD
  cases hD
  obtain ⟨ll, le⟩ := forEach_ok hl
  rw [List.length_zipIdx] at ll
  have hk : ∀ (k : Nat) (c : Contact3), cs[k]? = some c → ∃ g1 g2, l[k]? = some [Contact3.column g1, Contact3.column g2] ∧
      c.frictionColumn s.nb s.q0 (c.basis s.nb s.q0 v).2.1 = .ok g1 ∧ c.frictionColumn s.nb s.q0 (c.basis s.nb s.q0 v).2.2 = .ok g2 := by
    intro k c hk
    obtain ⟨p, hp, hf⟩ := le k (c, k) (by rw [List.getElem?_zipIdx, hk]; simp)
    obtain ⟨e1, e2, e3⟩ := Contact3.bases_get s.nb s.q0 v hk
    rw [show List.range 2 = [0, 1] from by decide, forEach, forEach, forEach] at hf
    obtain ⟨g1, h1, hf⟩ := Outcome.bind_ok_iff.mp hf
    obtain ⟨r, hr, hf⟩ := Outcome.bind_ok_iff.mp hf
    obtain ⟨g2, h2, hr⟩ := Outcome.bind_ok_iff.mp hr
    cases hr
    cases hf
    dsimp only at h1 h2
    rw [entry_some (show (Contact3.contactBases s.nb s.q0 v cs)[3 * k + 0 + 1]? = _ from e2)] at h1
    rw [entry_some (show (Contact3.contactBases s.nb s.q0 v cs)[3 * k + 1 + 1]? = _ from e3)] at h2
    obtain ⟨_, ht1, h1⟩ := Outcome.bind_ok_iff.mp h1
    obtain ⟨_, ht2, h2⟩ := Outcome.bind_ok_iff.mp h2
    cases ht1
    cases ht2
    obtain ⟨g1', h1', h1⟩ := Outcome.bind_ok_iff.mp h1
    obtain ⟨g2', h2', h2⟩ := Outcome.bind_ok_iff.mp h2
    cases h1
    cases h2
    exact ⟨g1', g2', hp, h1', h2'⟩
  rw [mulColumns_eq b N alpha (by omega), mulColumns_eq b l.flatten beta, columnsTimes_pairs b l beta _ (by omega)]
  · unfold columnsTimes response3
    rw [nl, ll, ← Finset.sum_add_distrib]
    refine Finset.sum_congr rfl fun k hkr => ?_
    have hlt := Finset.mem_range.mp hkr
    have hkc := List.getElem?_eq_getElem hlt
    obtain ⟨g1, g2, hg, hg1, hg2⟩ := hk k _ hkc
    obtain ⟨nk, hnk, hnn⟩ := ne k _ hkc
    obtain ⟨g0, hg0, hnn⟩ := Outcome.bind_ok_iff.mp hnn
    cases hnn
    have hc : cs[k] ∈ cs := List.getElem_mem hlt
    obtain ⟨hi, hj, x, y, P, _, _, himp, _, _, hcol⟩ := made_shape (made_activeSet h hc)
    obtain ⟨c0, c1⟩ := hcol (hself _ hc)
    rw [hkc, hnk, hg, List.getElem?_eq_getElem (show k < alpha.length by omega), List.getElem?_eq_getElem (show 2 * k < beta.length by omega),
      List.getElem?_eq_getElem (show 2 * k + 1 < beta.length by omega)]
    dsimp only
    rw [c0 _ hg0, c1 _ _ hg1, c1 _ _ hg2, himp]
    have hlin : ∀ (a0 a1 a2 : ℝ) (t0 t1 t2 : Vec3), a0 • pairAbout3 s.nb cs[k].simulatedBodies x y P t0 b +
        (a1 • pairAbout3 s.nb cs[k].simulatedBodies x y P t1 b + a2 • pairAbout3 s.nb cs[k].simulatedBodies x y P t2 b) =
        pairAbout3 s.nb cs[k].simulatedBodies x y P (a0 • t0 + a1 • t1 + a2 • t2) b := by
      intro a0 a1 a2 t0 t1 t2
      have one : ∀ (z : Vec3) (i : Nat), a0 • impulseAbout3 s.nb z i P t0 b + (a1 • impulseAbout3 s.nb z i P t1 b + a2 • impulseAbout3 s.nb z i P t2 b) =
          impulseAbout3 s.nb z i P (a0 • t0 + a1 • t1 + a2 • t2) b := by
        intro z i
        unfold impulseAbout3
        split
        · abel
        split
        · simp only [map_add, map_smul]; abel
        · simp
      unfold pairAbout3
      cases cs[k].simulatedBodies.2 with
      | none => exact one _ _
      | some j =>
        dsimp only
        rw [← one, ← one]
        simp only [smul_sub]
        abel
    rw [hlin]
    rfl
  · intro p hp
    obtain ⟨k, hkp⟩ := List.getElem?_of_mem hp
    have hlt : k < cs.length := by rw [← ll]; exact (List.getElem?_eq_some_iff.mp hkp).1
    obtain ⟨g1, g2, hg, _⟩ := hk k _ (List.getElem?_eq_getElem hlt)
    rw [hkp] at hg
    cases hg
    rfl
  · rw [List.length_flatten, List.map_congr_left (g := fun _ => 2)]
    · simp; omega
    · intro p hp
      obtain ⟨k, hkp⟩ := List.getElem?_of_mem hp
      have hlt : k < cs.length := by rw [← ll]; exact (List.getElem?_eq_some_iff.mp hkp).1
      obtain ⟨g1, g2, hg, _⟩ := hk k _ (List.getElem?_eq_getElem hlt)
      rw [hkp] at hg
      cases hg
      rfl

/-- **C69** (partial) In terms of the matrices of the solvers: what is read from the file is `N alpha + D beta`, the change of momentum that the step applies. -/
theorem C69_rb3d_momentum_partial (h : s.computeActiveSet3 axis portals = .ok cs)
    (hself : ∀ c ∈ cs, c.simulatedBodies.2 ≠ some c.simulatedBodies.1)
    (ha : alpha.length = cs.length) (hb : beta.length = 2 * cs.length) {N D : List Blocks3} (hN : Contact3.computeN s.nb s.q0 cs = .ok N)
    (hD : Contact3.smoothFrictionBasis s.nb s.q0 cs (Contact3.contactBases s.nb s.q0 v cs) = .ok D)
    (he : Contact3.exportForces s.nb s.q0 v cs alpha beta dt = .ok f) (b : Nat) (hd : b < s.nb ∨ ∀ c ∈ cs, c.Direct) :
    f.total (fun col => col.impulse3 s.nb s.q0.x s.scripted b) = mulColumns N alpha b + mulColumns D beta b := by
  rw [(C69_rb3d_partial h he).2.2 b hd, response3_eq h hself ha hb hN hD]

end Space

/-! ## 2D rigid bodies -/

section Plane

open Step2

variable {junk : ℝ → ℤ} {s : Step2} {portals : List (PlanarPortal ℝ)} {cs : List Contact2} {c : Contact2}
variable {alpha beta : List ℝ} {dt : ℝ} {f : File (V2 ℝ)}

/-- What a file has to name as the second partner of a contact: a body by its index, plane number `k` by `-2 - k` -/
def Contact2.partnerCode : Contact2 → ℤ
  | .bodyBody _ j _ _ _ | .circleCircle _ j _ _ _ _ | .teleported _ j _ _ _ | .kick _ j _ _ _ _ => j
  | .kinematicCircle _ _ _ k _ _ _ => k
  | .planeCircle _ k _ _ | .planeBody _ _ _ k => -2 - (k : ℤ)

theorem Contact2.indices_ok (q : Dofs) (c : Contact2) : collisionIndices (c.view q) = .ok ((c.simulatedBodies.1 : ℤ), c.partnerCode) := by
  cases c <;> (simp [collisionIndices, Contact2.view, Contact2.bodyIndices, Contact2.staticIndex, Outcome.bind,
    Contact2.simulatedBodies, Contact2.partnerCode] <;> ring)

theorem Contact2.bases_get {k : Nat} (hk : cs[k]? = some c) :
    (contactBases cs)[2 * k]? = some c.normal ∧ (contactBases cs)[2 * k + 1]? = some c.tangent := bases2_get Contact2.normal Contact2.tangent cs k c hk

/-- **C69** What is written in the columns of a contact in the plane -/
theorem C69_rb2d_columns (he : Contact2.exportForces s.q0 cs alpha beta dt = .ok f) :
    f.Regular ∧ f.count = cs.length ∧ ∀ k c, cs[k]? = some c → ∃ a b, alpha[k]? = some a ∧ beta[k]? = some b ∧
      f.column k = some ⟨c.simulatedBodies.1, c.partnerCode, c.contactPoint s.q0, c.normal, a • c.normal + b • c.tangent⟩ := by
  obtain ⟨h1, h2, h3⟩ := export_ok he
  rw [List.length_map] at h2
  refine ⟨h1, h2, fun k c hk => ?_⟩
  obtain ⟨i, P, n, g, hcol, hi, hP, hn, hg⟩ := h3 k (c.view s.q0) (by rw [List.getElem?_map, hk]; rfl)
  obtain ⟨a, b, n', t, ha, hb, hn', ht, rfl⟩ := forceColumn2 hg
  obtain ⟨e1, e2⟩ := Contact2.bases_get hk
  rw [hn] at e1 hn'
  rw [ht] at e2
  cases hn'
  cases e1
  cases e2
  rw [Contact2.indices_ok] at hi
  cases hi
  cases hP
  exact ⟨a, b, ha, hb, hcol⟩

/-- **C69** The file is written exactly when there are enough impulses. -/
theorem C69_rb2d_written : (∃ f, Contact2.exportForces s.q0 cs alpha beta dt = .ok f) ↔ cs.length ≤ alpha.length ∧ cs.length ≤ beta.length := by
  constructor
  · rintro ⟨f, he⟩
    obtain ⟨_, _, h3⟩ := C69_rb2d_columns he
    refine ⟨?_, ?_⟩
    · by_contra hlt
      obtain ⟨_, _, ha, _⟩ := h3 alpha.length _ (List.getElem?_eq_getElem (by omega))
      simp at ha
    · by_contra hlt
      obtain ⟨_, _, _, hb, _⟩ := h3 beta.length _ (List.getElem?_eq_getElem (by omega))
      simp at hb
  · rintro ⟨ha, hb⟩
    unfold Contact2.exportForces Forces.exportForces
    split
    · exact ⟨_, rfl⟩
    rw [List.length_map]
    obtain ⟨is, h1⟩ := forEach_all (f := collisionIndices) (l := cs.map (Contact2.view s.q0)) fun d hd => by
      obtain ⟨c, hc, rfl⟩ := List.mem_map.mp hd
      exact ⟨_, Contact2.indices_ok s.q0 c⟩
    obtain ⟨ps, h2⟩ := forEach_all (f := fun c : View (V2 ℝ) => c.point) (l := cs.map (Contact2.view s.q0)) fun d hd => by
      obtain ⟨c, hc, rfl⟩ := List.mem_map.mp hd
      exact ⟨_, rfl⟩
    obtain ⟨ns, h3⟩ := forEach_all (f := fun con => entry (Contact2.contactBases cs) (2 * con)) (l := List.range cs.length) fun k hk =>
      ⟨_, entry_some (Contact2.bases_get (List.getElem?_eq_getElem (List.mem_range.mp hk))).1⟩
    obtain ⟨gs, h4⟩ := forEach_all (f := forceColumn 2 (Contact2.contactBases cs) alpha beta) (l := List.range cs.length) fun k hk => by
      have hk := List.mem_range.mp hk
      obtain ⟨e1, e2⟩ := Contact2.bases_get (List.getElem?_eq_getElem hk)
      unfold forceColumn
      rw [show List.range (2 - 1) = [0] from by decide]
      simp only [List.foldl, entry_some e1, entry_some (List.getElem?_eq_getElem (show k < alpha.length by omega)), Outcome.bind,
        entry_some (List.getElem?_eq_getElem (show (2 - 1) * k + 0 < beta.length by omega)), entry_some (show (Contact2.contactBases cs)[2 * k + 0 + 1]? = _ from e2)]
      exact ⟨_, rfl⟩
    rw [h1, h2, h3, h4]
    exact ⟨_, rfl⟩

/-- One column, read by someone who knows the configuration, gives what the contact does. -/
theorem column_impulse2 (h : s.computeActiveSet2 junk portals = .ok cs) (hc : c ∈ cs) (hd : c.Direct) (n : V2 ℝ) (a b : ℝ) (k : Nat) :
    Column.impulse2 s.q0 s.scripted ⟨c.simulatedBodies.1, c.partnerCode, c.contactPoint s.q0, n, a • c.normal + b • c.tangent⟩ k =
      contactImpulse c s.q0 a b k := by
  rw [C55_impulse h hc hd]
  unfold Column.impulse2
  dsimp only
  rw [Int.toNat_natCast]
  have hfree : ∀ j, s.Free j → s.scripted j = false := by
    rintro j ⟨b, hb, hf⟩
    simp [Step2.scripted, hb, hf]
  have hscr : ∀ j, s.Scripted j → s.scripted j = true := by
    rintro j ⟨b, hb, hf⟩
    simp [Step2.scripted, hb, hf]
  congr 1
  cases made_activeSet h hc with
  | bodyBody i j p n hi hj => exact if_pos ⟨Int.natCast_nonneg _, hfree j hj⟩
  | circleCircle i j ra rb hi hj => exact if_pos ⟨Int.natCast_nonneg _, hfree j hj⟩
  | kinematicCircle i k r n hi hk => exact if_neg fun h => by have h2 : s.scripted k = false := h.2; rw [hscr k hk] at h2; cases h2
  | planeCircle i k r p hi hp => exact if_neg fun h => by have h1 := h.1; simp only [Contact2.partnerCode] at h1; omega
  | planeBody i k arm p hi hp => exact if_neg fun h => by have h1 := h.1; simp only [Contact2.partnerCode] at h1; omega
  | teleported i j x0 x1 ra rb hi hj => exact hd.elim
  | kick i j x0 x1 ra rb k hi hj => exact hd.elim

/-- **C69** (partial). A file with the forces of a step with friction has one column for every contact. Someone who reads it and knows the configuration and
which bodies are scripted finds what the contacts do to the momenta of all bodies, if no contact is through a portal. Missing: contacts through portals; the
numbers are impulses (`C69_false_dt`). -/
theorem C69_rb2d_partial (h : s.computeActiveSet2 junk portals = .ok cs) (hd : ∀ c ∈ cs, c.Direct)
    (he : Contact2.exportForces s.q0 cs alpha beta dt = .ok f) :
    f.Regular ∧ f.count = cs.length ∧ ∀ b, f.total (fun col => col.impulse2 s.q0 s.scripted b) = response2 s.q0 cs alpha beta b := by
  obtain ⟨h1, h2, h3⟩ := C69_rb2d_columns he
  refine ⟨h1, h2, fun b => total_eq h2 _ fun k c hk => ?_⟩
  obtain ⟨a, b', ha, hb, hcol⟩ := h3 k c hk
  have hc := List.mem_of_getElem? hk
  refine ⟨_, hcol, ?_⟩
  rw [hk, ha, hb]
  exact column_impulse2 h hc (hd c hc) _ _ _ b

/-- **C69** (partial) The same for a step without friction, which only has a file if no contact is through a portal. -/
theorem C69_rb2d_impacts_partial (h : s.computeActiveSet2 junk portals = .ok cs) (he : Contact2.exportImpacts s.q0 cs alpha dt = .ok f) :
    (∀ c ∈ cs, c.Direct) ∧ f.Regular ∧ f.count = cs.length ∧
      ∀ b, f.total (fun col => col.impulse2 s.q0 s.scripted b) = response2 s.q0 cs alpha (List.replicate cs.length 0) b := by
  obtain ⟨h1, h2, h3⟩ := exportImpacts_ok he
  rw [List.length_map] at h2
  have hcol : ∀ k c, cs[k]? = some c → c.Direct ∧ ∃ a, alpha[k]? = some a ∧
      f.column k = some ⟨c.simulatedBodies.1, c.partnerCode, c.contactPoint s.q0, c.normal, a • c.normal + (0 : ℝ) • c.tangent⟩ := by
    intro k c hk
    obtain ⟨i, P, n, a, hcol, hi, hP, hn, ha⟩ := h3 k (c.view s.q0) (by rw [List.getElem?_map, hk]; rfl)
    have hdir : c.Direct ∧ c.normal = n := by
      cases c <;> first | (cases hn; exact ⟨trivial, rfl⟩) | cases hn
    obtain ⟨hd, rfl⟩ := hdir
    rw [Contact2.indices_ok] at hi
    cases hi
    cases hP
    refine ⟨hd, a, ha, ?_⟩
    rw [hcol, show a • c.normal + (0 : ℝ) • c.tangent = a • c.normal by ext <;> simp]
  have hd : ∀ c ∈ cs, c.Direct := fun c hc => by
    obtain ⟨k, hk⟩ := List.getElem?_of_mem hc
    exact (hcol k c hk).1
  refine ⟨hd, h1, h2, fun b => total_eq h2 _ fun k c hk => ?_⟩
  obtain ⟨_, a, ha, hcol⟩ := hcol k c hk
  have hc := List.mem_of_getElem? hk
  refine ⟨_, hcol, ?_⟩
  rw [hk, ha, List.getElem?_replicate_of_lt (List.getElem?_eq_some_iff.mp hk).1]
  exact column_impulse2 h hc (hd c hc) _ _ _ b

/-- C69, finding: a step without friction that has a contact through a portal has no file; the program stops when it asks the contact for its normal. -/
theorem C69_false_portal_impacts (i j : Nat) (n r0 r1 : V2 ℝ) (pre : List Contact2) :
    ∀ g, Contact2.exportImpacts s.q0 (pre ++ [.teleported i j n r0 r1]) alpha dt ≠ .ok g := by
  intro g hg
  obtain ⟨_, _, h3⟩ := exportImpacts_ok hg
  obtain ⟨_, _, _, _, _, _, _, hn, _⟩ := h3 pre.length ((Contact2.teleported i j n r0 r1).view s.q0) (by simp)
  cases hn

end Plane

/-! ## 2D balls -/

section Balls

variable {bs : List BallStep} {cs : List Contact} {c : Contact} {alpha beta : List ℝ} {dt : ℝ} {f : File (V2 ℝ)}

/-- What a file has to name as the second partner of a contact: a ball by its index, plane or drum number `k` by `-2 - k` -/
def Contact.partnerCode : Contact → ℤ
  | .ballBall c => c.idx1
  | .drum _ _ k | .plane _ _ k => -2 - (k : ℤ)

theorem Contact.indices_ok (bs : List BallStep) (c : Contact) : collisionIndices (c.view bs) = .ok ((c.bodies.1 : ℤ), c.partnerCode) := by
  cases c <;> (simp [collisionIndices, Contact.view, Contact.bodies, Contact.staticIndex, Outcome.bind, Contact.partnerCode] <;> ring)

theorem Contact.bases_get {k : Nat} (hk : cs[k]? = some c) :
    (contactBases cs)[2 * k]? = some c.normal ∧ (contactBases cs)[2 * k + 1]? = some c.tangent := bases2_get Contact.normal Contact.tangent cs k c hk

/-- **C69** What is written in the columns of a contact of balls: the point is where the normal through the centre of the first ball meets its surface. -/
theorem C69_ball2d_columns (he : Contact.exportForces bs cs alpha beta dt = .ok f) :
    f.Regular ∧ f.count = cs.length ∧ ∀ k c, cs[k]? = some c → ∃ x r a b, bs[c.bodies.1]? = some x ∧ c.radius bs = .ok r ∧ alpha[k]? = some a ∧
      beta[k]? = some b ∧ f.column k = some ⟨c.bodies.1, c.partnerCode, x.q0 - r • c.normal, c.normal, a • c.normal + b • c.tangent⟩ := by
  obtain ⟨h1, h2, h3⟩ := export_ok he
  rw [List.length_map] at h2
  refine ⟨h1, h2, fun k c hk => ?_⟩
  obtain ⟨i, P, n, g, hcol, hi, hP, hn, hg⟩ := h3 k (c.view bs) (by rw [List.getElem?_map, hk]; rfl)
  obtain ⟨a, b, n', t, ha, hb, hn', ht, rfl⟩ := forceColumn2 hg
  obtain ⟨e1, e2⟩ := Contact.bases_get hk
  rw [hn] at e1 hn'
  rw [ht] at e2
  cases hn'
  cases e1
  cases e2
  rw [Contact.indices_ok] at hi
  cases hi
  replace hP : c.point bs = .ok P := hP
  unfold Contact.point at hP
  split at hP
  · rename_i x hx
    obtain ⟨r, hr, hP⟩ := Outcome.bind_ok_iff.mp hP
    cases hP
    exact ⟨x, r, a, b, hx, hr, ha, hb, hcol⟩
  · cases hP

/-- **C69** (partial). Someone who reads the file finds what the contacts do to the momenta of all balls, which is the product of the matrices of the solvers
with the impulses: `N alpha + D beta`. Missing: a ball that touches itself through a portal; the numbers are impulses (`C69_false_dt`). -/
theorem C69_ball2d_partial (hself : ∀ c ∈ cs, c.bodies.2 ≠ some c.bodies.1) (ha : alpha.length = cs.length) (hb : beta.length = cs.length)
    (he : Contact.exportForces bs cs alpha beta dt = .ok f) (b : Nat) :
    f.total (fun col => col.impulseBall b) = mulColumns (Contact.computeN cs) alpha b + mulColumns (Contact.smoothFrictionBasis cs) beta b := by
  obtain ⟨h1, h2, h3⟩ := C69_ball2d_columns he
  rw [mulColumns_eq b _ _ (by simp [Contact.computeN, ha]), mulColumns_eq b _ _ (by simp [Contact.smoothFrictionBasis, hb])]
  unfold columnsTimes
  rw [show (Contact.computeN cs).length = cs.length by simp [Contact.computeN],
    show (Contact.smoothFrictionBasis cs).length = cs.length by simp [Contact.smoothFrictionBasis], ← Finset.sum_add_distrib]
  refine total_eq h2 _ fun k c hk => ?_
  obtain ⟨x, r, a, t, _, _, ha, hb, hcol⟩ := h3 k c hk
  refine ⟨_, hcol, ?_⟩
  have hne := hself c (List.mem_of_getElem? hk)
  rw [show (Contact.computeN cs)[k]? = some (c.column c.normal) by simp [Contact.computeN, hk],
    show (Contact.smoothFrictionBasis cs)[k]? = some (c.column c.tangent) by simp [Contact.smoothFrictionBasis, hk], ha, hb]
  unfold Column.impulseBall
  dsimp only
  cases c with
  | ballBall d =>
    have hne : d.idx1 ≠ d.idx0 := fun h => hne (by simp [Contact.bodies, h])
    simp only [Contact.bodies, Contact.partnerCode, Contact.column, Nat.cast_inj]
    by_cases h1 : b = d.idx1
    · have h0 : b ≠ d.idx0 := fun h => hne (h1.symm.trans h)
      simp only [if_pos h1, if_neg h0]
      ext <;> simp <;> ring
    · simp only [if_neg h1]
      by_cases h0 : b = d.idx0
      · simp only [if_pos h0]
        ext <;> simp
      · simp only [if_neg h0]
        ext <;> simp
  | drum i n k' | plane i n k' =>
    simp only [Contact.bodies, Contact.partnerCode, Contact.column, Nat.cast_inj]
    have hz : ¬((b : ℤ) = -2 - (k' : ℤ)) := by omega
    simp only [hz, if_false]
    by_cases h0 : b = i
    · simp only [if_pos h0]
      ext <;> simp
    · simp only [if_neg h0]
      ext <;> simp

/-- **C69** (partial) The same for a step without friction: what is read is `N alpha`. -/
theorem C69_ball2d_impacts_partial (hself : ∀ c ∈ cs, c.bodies.2 ≠ some c.bodies.1) (ha : alpha.length = cs.length)
    (he : Contact.exportImpacts bs cs alpha dt = .ok f) :
    f.Regular ∧ f.count = cs.length ∧ ∀ b, f.total (fun col => col.impulseBall b) = mulColumns (Contact.computeN cs) alpha b := by
  obtain ⟨h1, h2, h3⟩ := exportImpacts_ok he
  rw [List.length_map] at h2
  refine ⟨h1, h2, fun b => ?_⟩
  rw [mulColumns_eq b _ _ (by simp [Contact.computeN, ha])]
  unfold columnsTimes
  rw [show (Contact.computeN cs).length = cs.length by simp [Contact.computeN]]
  refine total_eq h2 _ fun k c hk => ?_
  obtain ⟨i, P, n, a, hcol, hi, hP, hn, ha⟩ := h3 k (c.view bs) (by rw [List.getElem?_map, hk]; rfl)
  refine ⟨_, hcol, ?_⟩
  have hne := hself c (List.mem_of_getElem? hk)
  rw [show (Contact.computeN cs)[k]? = some (c.column c.normal) by simp [Contact.computeN, hk], ha]
  rw [Contact.indices_ok] at hi
  cases hi
  replace hn : Outcome.ok c.normal = .ok n := hn
  cases hn
  unfold Column.impulseBall
  dsimp only
  cases c with
  | ballBall d =>
    have hne : d.idx1 ≠ d.idx0 := fun h => hne (by simp [Contact.bodies, h])
    simp only [Contact.bodies, Contact.partnerCode, Contact.column, Nat.cast_inj]
    by_cases h1 : b = d.idx1
    · have h0 : b ≠ d.idx0 := fun h => hne (h1.symm.trans h)
      simp only [if_pos h1, if_neg h0]
      ext <;> simp
    · simp only [if_neg h1]
      by_cases h0 : b = d.idx0
      · simp only [if_pos h0]
        ext <;> simp
      · simp only [if_neg h0]
        ext <;> simp
  | drum i n k' | plane i n k' =>
    simp only [Contact.bodies, Contact.partnerCode, Contact.column, Nat.cast_inj]
    have hz : ¬((b : ℤ) = -2 - (k' : ℤ)) := by omega
    simp only [hz, if_false]
    by_cases h0 : b = i
    · simp only [if_pos h0]
      ext <;> simp
    · simp only [if_neg h0]
      ext <;> simp

/-- **C69** The file of a step with friction is written when the balls of the contacts exist and there are enough impulses. -/
theorem C69_ball2d_written (hcs : ∀ c ∈ cs, c.bodies.1 < bs.length) (ha : cs.length ≤ alpha.length) (hb : cs.length ≤ beta.length) :
    ∃ f, Contact.exportForces bs cs alpha beta dt = .ok f := by
  unfold Contact.exportForces Forces.exportForces
  split
  · exact ⟨_, rfl⟩
  rw [List.length_map]
  obtain ⟨is, h1⟩ := forEach_all (f := collisionIndices) (l := cs.map (Contact.view bs)) fun d hd => by
    obtain ⟨c, hc, rfl⟩ := List.mem_map.mp hd
    exact ⟨_, Contact.indices_ok bs c⟩
  obtain ⟨ps, h2⟩ := forEach_all (f := fun c : View (V2 ℝ) => c.point) (l := cs.map (Contact.view bs)) fun d hd => by
    obtain ⟨c, hc, rfl⟩ := List.mem_map.mp hd
    have hx := List.getElem?_eq_getElem (hcs c hc)
    have hr : ∃ r, c.radius bs = .ok r := by
      cases c with
      | ballBall d => exact ⟨_, rfl⟩
      | drum i n k | plane i n k => exact ⟨(bs[i]'(hcs _ hc)).r, by simp only [Contact.radius]; rw [show bs[i]? = _ from hx]; rfl⟩
    obtain ⟨r, hr⟩ := hr
    refine ⟨(bs[c.bodies.1]'(hcs c hc)).q0 - r • c.normal, ?_⟩
    show c.point bs = _
    unfold Contact.point
    rw [hx, hr]
    rfl
  obtain ⟨ns, h3⟩ := forEach_all (f := fun con => entry (Contact.contactBases cs) (2 * con)) (l := List.range cs.length) fun k hk =>
    ⟨_, entry_some (Contact.bases_get (List.getElem?_eq_getElem (List.mem_range.mp hk))).1⟩
  obtain ⟨gs, h4⟩ := forEach_all (f := forceColumn 2 (Contact.contactBases cs) alpha beta) (l := List.range cs.length) fun k hk => by
    have hk := List.mem_range.mp hk
    obtain ⟨e1, e2⟩ := Contact.bases_get (List.getElem?_eq_getElem hk)
    unfold forceColumn
    rw [show List.range (2 - 1) = [0] from by decide]
    simp only [List.foldl, entry_some e1, entry_some (List.getElem?_eq_getElem (show k < alpha.length by omega)), Outcome.bind,
      entry_some (List.getElem?_eq_getElem (show (2 - 1) * k + 0 < beta.length by omega)), entry_some (show (Contact.contactBases cs)[2 * k + 0 + 1]? = _ from e2)]
    exact ⟨_, rfl⟩
  rw [h1, h2, h3, h4]
  exact ⟨_, rfl⟩

/-- C69, finding: a contact with drum number `k` and a contact with plane number `k` look the same in a file. -/
theorem C69_false_static (i k : Nat) (n : V2 ℝ) :
    Contact.exportForces bs [.drum i n k] alpha beta dt = Contact.exportForces bs [.plane i n k] alpha beta dt := rfl

/-- One ball on the ground, whose contact is given an impulse of 1 in a step of length 1/2 -/
noncomputable def ballOnGround : List BallStep := [⟨⟨0, 1⟩, ⟨0, 1⟩, 1, false⟩]

/-- Non-vacuity of `C69_ball2d_partial` -/
theorem C69_ball_example : ∃ f, Contact.exportForces ballOnGround [.plane 0 ⟨0, 1⟩ 0] [1] [0] (1 / 2) = .ok f ∧ f.count = 1 ∧
    f.column 0 = some ⟨0, -2, ⟨0, 0⟩, ⟨0, 1⟩, ⟨0, 1⟩⟩ ∧ f.total (fun col => col.impulseBall 0) = ⟨0, 1⟩ := by
  obtain ⟨f, hf⟩ := C69_ball2d_written (bs := ballOnGround) (cs := [.plane 0 ⟨0, 1⟩ 0]) (alpha := [1]) (beta := [0]) (dt := 1 / 2)
    (by simp [ballOnGround, Contact.bodies]) (by simp) (by simp)
  obtain ⟨_, h2, h3⟩ := C69_ball2d_columns hf
  obtain ⟨x, r, a, b, hx, hr, ha, hb, hcol⟩ := h3 0 _ rfl
  cases hx
  cases hr
  cases ha
  cases hb
  refine ⟨f, hf, h2, ?_, ?_⟩
  · rw [hcol]
    simp [Contact.bodies, Contact.partnerCode, Contact.normal, Contact.tangent]
    constructor <;> ext <;> simp
  · rw [C69_ball2d_partial (by simp [Contact.bodies]) rfl rfl hf]
    ext <;> simp [mulColumns, Contact.computeN, Contact.smoothFrictionBasis, Contact.column, Contact.normal, Contact.tangent]

/-- C69, finding: the data set `collision_forces` has impulses. The step size is not used, and the values times the step size are not the change of
momentum. -/
theorem C69_false_dt : (∀ (bs : List BallStep) cs alpha beta dt dt', Contact.exportForces bs cs alpha beta dt = Contact.exportForces bs cs alpha beta dt') ∧
    ∃ f, Contact.exportForces ballOnGround [.plane 0 ⟨0, 1⟩ 0] [1] [0] (1 / 2) = .ok f ∧
      (1 / 2 : ℝ) • f.total (fun col => col.impulseBall 0) ≠ mulColumns (Contact.computeN [.plane 0 ⟨0, 1⟩ 0]) [1] 0 := by
  refine ⟨fun _ _ _ _ _ _ => rfl, ?_⟩
  obtain ⟨f, hf, _, _, ht⟩ := C69_ball_example
  refine ⟨f, hf, fun h => ?_⟩
  rw [ht] at h
  have := congrArg V2.y h
  simp [mulColumns, Contact.computeN, Contact.column, Contact.normal] at this

end Balls

/-! ## Examples and findings for rigid bodies -/

section

open Step3

variable {axis : Vec3 → Vec3 → Vec3} {s : Step3}

theorem direct_ordered {i j : Nat} {a b : SceneBody3} {l : List Contact3} (h : s.dispatchOrdered i j a b = .ok l) {d : Contact3} (hd : d ∈ l) :
    d.Direct ∧ ((∃ r, a.geometry = .sphere r) → ∀ i j n r0 r1, d ≠ .bodyBody i j n r0 r1) := by
  unfold dispatchOrdered at h
  split at h
  · rename_i hg _
    cases h
    refine ⟨?_, fun ⟨r, hr⟩ => by rw [hg] at hr; cases hr⟩
    unfold boxBoxNarrowPhaseCollision at hd
    dsimp only at hd
    split at hd <;> (obtain ⟨p, _, rfl⟩ := List.mem_map.mp hd; trivial)
  · cases h
    unfold sphereSphereNarrowPhaseCollision at hd
    dsimp only at hd
    split at hd
    · split at hd <;> (rw [List.mem_singleton] at hd; subst hd; exact ⟨trivial, fun _ _ _ _ _ _ h => by cases h⟩)
    · cases hd
  · unfold stapleStapleNarrowPhaseCollision at h
    split at h <;> cases h
    cases hd
  · rename_i hg _
    cases h
    refine ⟨?_, fun ⟨r, hr⟩ => by rw [hg] at hr; cases hr⟩
    unfold meshMeshNarrowPhaseCollision at hd
    dsimp only at hd
    split at hd <;> (obtain ⟨p, _, rfl⟩ := List.mem_map.mp hd; trivial)
  · cases h

theorem direct3_of_no_portals {cs : List Contact3} (h : s.computeActiveSet3 axis [] = .ok cs) {c : Contact3} (hc : c ∈ cs) :
    c.Direct ∧ ((∀ b ∈ s.bodies, ∃ r, b.geometry = .sphere r) → ∀ i j n r0 r1, c ≠ .bodyBody i j n r0 r1) := by
  have hm := made_activeSet h hc
  have hvia : ∀ k, (imageOf s.bodies.length [] k).via = none := by
    intro k
    unfold imageOf
    split <;> simp
  unfold computeActiveSet3 at h
  obtain ⟨l, h1, h⟩ := Outcome.bind_ok_iff.mp h
  obtain ⟨lp, h2, h⟩ := Outcome.bind_ok_iff.mp h
  obtain ⟨lc, h3, h⟩ := Outcome.bind_ok_iff.mp h
  cases h
  rw [List.mem_append, List.mem_append] at hc
  rcases hc with (hc | hc) | hc
  · unfold computeActiveSetBodyBodySpatialGrid at h1
    dsimp only at h1
    obtain ⟨pairs, _, h1⟩ := Outcome.bind_ok_iff.mp h1
    obtain ⟨r, hr, h1⟩ := Outcome.bind_ok_iff.mp h1
    obtain ⟨tl, ht, h1⟩ := Outcome.bind_ok_iff.mp h1
    cases h1
    obtain ⟨hr1, hr2, _⟩ := classifyAll_ok hr
    rcases List.mem_append.mp hc with hc | hc
    · rcases (hr1 c).mp hc with hc | ⟨p, _, r', h4, h5⟩
      · cases hc
      · rcases (classify3_parts h4).1 with h6 | h6
        · rw [h6] at h5; cases h5
        · unfold dispatchNarrowPhaseCollision at h6
          split at h6
          · rename_i a b ha hb
            split at h6
            · injection h6 with h7; rw [← h7] at h5; cases h5
            · split at h6
              · obtain ⟨h8, h9⟩ := direct_ordered h6 h5
                exact ⟨h8, fun hs => h9 (hs _ (List.mem_of_getElem? hb))⟩
              · obtain ⟨h8, h9⟩ := direct_ordered h6 h5
                exact ⟨h8, fun hs => h9 (hs _ (List.mem_of_getElem? ha))⟩
          · cases h6
    · exfalso
      obtain ⟨t, htm, here, h4, h5⟩ := ((Step2.collect_ok ht).1 c).mp hc
      rw [hr2] at htm
      rcases Step2.mem_foldl_insertCollision htm with htm | htm
      · obtain ⟨p, _, hp⟩ := List.mem_filterMap.mp htm
        split at hp
        · rename_i r' hr'
          obtain ⟨_, h6⟩ := (classify3_parts hr').2 t hp
          rcases h6 with h6 | h6 <;> exact h6 (hvia _)
        · cases hp
      · cases htm
  · unfold computeBodyPlaneActiveSetAllPairs at h2
    obtain ⟨⟨p, k⟩, _, l', h', hc⟩ := ((Step2.collect_ok h2).1 c).mp hc
    obtain ⟨⟨b, i⟩, _, l'', h, hc⟩ := ((Step2.collect_ok h').1 c).mp hc
    dsimp only at h
    unfold bodyPlane at h
    split at h
    · cases h; cases hc
    split at h
    · cases h
      obtain ⟨corner, _, rfl⟩ := List.mem_map.mp hc
      exact ⟨trivial, fun _ _ _ _ _ _ h => by cases h⟩
    · cases h
      split at hc
      · rw [List.mem_singleton] at hc; subst hc; exact ⟨trivial, fun _ _ _ _ _ _ h => by cases h⟩
      · cases hc
    · cases h
    · cases h
      obtain ⟨corner, _, rfl⟩ := List.mem_map.mp hc
      exact ⟨trivial, fun _ _ _ _ _ _ h => by cases h⟩
  · unfold computeBodyCylinderActiveSetAllPairs at h3
    obtain ⟨⟨p, k⟩, _, l', h', hc⟩ := ((Step2.collect_ok h3).1 c).mp hc
    obtain ⟨⟨b, i⟩, _, l'', h, hc⟩ := ((Step2.collect_ok h').1 c).mp hc
    dsimp only at h
    unfold bodyCylinder at h
    split at h
    · cases h; cases hc
    split at h
    · cases h
      split at hc
      · rw [List.mem_singleton] at hc; subst hc; exact ⟨trivial, fun _ _ _ _ _ _ h => by cases h⟩
      · cases hc
    · cases h
      obtain ⟨corner, _, rfl⟩ := List.mem_map.mp hc
      exact ⟨trivial, fun _ _ _ _ _ _ h => by cases h⟩
    · cases h
    · cases h

/-- a matrix times a vector that is zero but for the last entry -/
theorem mulColumns_last {ι : Type} (b : ι) (g : ι → Vec3) : ∀ D : List (ι → Vec3), mulColumns (D ++ [g]) (List.replicate D.length 0 ++ [1]) b = g b
  | [] => by simp [mulColumns]
  | c :: D => by
    have ih := mulColumns_last b g D
    unfold mulColumns at ih ⊢
    simp only [List.cons_append, List.length_cons, List.replicate_succ, List.zipWith_cons_cons, List.sum_cons, zero_smul, zero_add]
    exact ih

/-- C69, finding: with a friction disk of four directions, the force of friction is `D beta` with four entries of `beta` for each contact, but the file is
written from two entries for each contact. Here the last contact has the force of friction 1 along its last direction, which is not in the file. -/
theorem C69_false_linear {pre : List Contact3} {c : Contact3} {v : Blocks3} {portals : List Portal3}
    (h : s.computeActiveSet3 axis portals = .ok (pre ++ [c])) (hm : ∀ d ∈ pre ++ [c], ¬d.MeshInCylinder)
    (hn : c.normal s.q0 ⬝ᵥ c.normal s.q0 = 1) (hij : c.simulatedBodies.2 ≠ some c.simulatedBodies.1) {D : List Blocks3}
    (hD : Contact3.linearFrictionBasis s.nb s.q0 v (pre ++ [c]) 4 = .ok D) (dt : ℝ) :
    ∃ beta f, beta.length = D.length ∧
      Contact3.exportForces s.nb s.q0 v (pre ++ [c]) (List.replicate (pre ++ [c]).length 0) beta dt = .ok f ∧
      (∀ b, f.total (fun col => col.impulse3 s.nb s.q0.x s.scripted b) = 0) ∧ mulColumns D beta c.simulatedBodies.1 ≠ 0 := by
  unfold Contact3.linearFrictionBasis at hD
  obtain ⟨l, hl, hD⟩ := Outcome.bind_ok_iff.mp hD
  injection hD with hD
  obtain ⟨ll, le⟩ := forEach_ok hl
  have hone : ∀ p ∈ l, p.length = 4 := fun p hp => by
    obtain ⟨k, hkp⟩ := List.getElem?_of_mem hp
    have hlt : k < (pre ++ [c]).length := by rw [← ll]; exact (List.getElem?_eq_some_iff.mp hkp).1
    obtain ⟨p', hp', hd⟩ := le k _ (List.getElem?_eq_getElem hlt)
    rw [hkp] at hp'
    cases hp'
    obtain ⟨disk, hdisk, hd⟩ := Outcome.bind_ok_iff.mp hd
    cases hd
    rw [List.length_map]
    exact (C59_disk _ _ hdisk).1
  obtain ⟨p, hp, hd⟩ := le pre.length c (by simp)
  obtain ⟨disk, hdisk, hd⟩ := Outcome.bind_ok_iff.mp hd
  cases hd
  obtain ⟨hlen, hcols⟩ := C59_disk _ _ hdisk
  obtain ⟨e0, e1, e2, e3, rfl⟩ : ∃ e0 e1 e2 e3, disk = [e0, e1, e2, e3] := by
    match disk, hlen with
    | [e0, e1, e2, e3], _ => exact ⟨e0, e1, e2, e3, rfl⟩
  have hsplit : l = l.take pre.length ++ [[e0, e1, e2, e3].map fun e => Contact3.column e.1] := by
    have h1 : l.length = pre.length + 1 := by simpa using ll
    rw [← List.take_append_drop pre.length l]
    congr 1
    · simp
    · rw [List.drop_eq_getElem_cons (by omega), List.drop_of_length_le (by omega)]
      congr 1
      exact (List.getElem?_eq_some_iff.mp hp).2
  set D0 := (l.take pre.length).flatten ++ [Contact3.column e0.1, Contact3.column e1.1, Contact3.column e2.1] with hD0
  have hDe : D = D0 ++ [Contact3.column e3.1] := by
    rw [← hD, hsplit, List.flatten_append]
    simp [hD0]
  have hl0 : D0.length = 4 * pre.length + 3 := by
    have h4 : ((l.take pre.length).map List.length).sum = 4 * pre.length := by
      rw [List.map_congr_left (g := fun _ => 4) fun p hp => hone p (List.mem_of_mem_take hp)]
      have : l.length = pre.length + 1 := by simpa using ll
      simp [this]
      omega
    rw [hD0, List.length_append, List.length_flatten, h4]
    rfl
  obtain ⟨f, hf⟩ := (C69_rb3d_written (s := s) (v := v) (cs := pre ++ [c]) (alpha := List.replicate (pre ++ [c]).length 0)
    (beta := List.replicate D0.length 0 ++ [1]) (dt := dt)).mpr ⟨hm, by simp, by simp; omega⟩
  refine ⟨List.replicate D0.length 0 ++ [1], f, by simp [hDe], hf, fun b => ?_, ?_⟩
  · obtain ⟨_, hc, h3⟩ := C69_rb3d_columns hf
    have hz := total_eq (effect := fun col => col.impulse3 s.nb s.q0.x s.scripted b) (cs := pre ++ [c]) hc (fun _ => 0) fun k d hk => by
      obtain ⟨P, a, b1, b2, ha, hb1, hb2, hP, hcol⟩ := h3 k d hk
      have hlt : k < pre.length + 1 := by simpa using (List.getElem?_eq_some_iff.mp hk).1
      rw [List.getElem?_replicate_of_lt (by simpa using hlt)] at ha
      rw [List.getElem?_append_left (by simp; omega), List.getElem?_replicate_of_lt (by omega)] at hb1 hb2
      cases ha
      cases hb1
      cases hb2
      refine ⟨_, hcol, ?_⟩
      have h0 : inFrame (d.basis s.nb s.q0 v) ![0, 0, 0] = 0 := by simp [inFrame]
      have hi : ∀ (x : Vec3) (i : Nat) (P : Vec3), impulseAbout3 s.nb x i P 0 b = 0 := by
        intro x i P
        unfold impulseAbout3
        simp
      unfold Column.impulse3
      dsimp only
      rw [h0, hi, hi]
      simp
    rw [hz, Finset.sum_const_zero]
  · rw [hDe, mulColumns_last]
    have hc : c ∈ pre ++ [c] := by simp
    obtain ⟨hi, hj, x, y, P, _, _, himp, _, _, hcol⟩ := made_shape (made_activeSet h hc)
    obtain ⟨h3, -⟩ := hcols 3 e3 rfl
    rw [(hcol hij).2 _ _ h3]
    obtain ⟨hu, -⟩ := C39_directions (c.normal s.q0) (c.relVel s.nb s.q0 v) hn 4 3
    generalize frictionDisk (c.normal s.q0) (c.relVel s.nb s.q0 v) 4 3 = d at hu
    have hval : pairAbout3 s.nb c.simulatedBodies x y P d c.simulatedBodies.1 = d := by
      unfold pairAbout3
      cases hs : c.simulatedBodies.2 with
      | none => simp [impulseAbout3]
      | some j =>
        have hne : c.simulatedBodies.1 ≠ j := fun h => hij (by rw [hs, h])
        simp only [impulseAbout3, if_true]
        rw [if_neg hne, if_neg (by omega), sub_zero]
    rw [hval]
    rintro rfl
    simp at hu

end

/-- Non-vacuity of `C69_rb3d_partial` and the theorems after it: two spheres on the ground in a cylinder -/
theorem C69_stack3 (axis : Vec3 → Vec3 → Vec3) (v : Blocks3) : ∃ cs f, stackOfSpheres.computeActiveSet3 axis [] = .ok cs ∧
    cs.filterMap Contact3.pair = [(0, 1)] ∧ (∀ c ∈ cs, c.Direct) ∧
    Contact3.exportForces stackOfSpheres.nb stackOfSpheres.q0 v cs (List.replicate cs.length 1) (List.replicate (2 * cs.length) 1) 1 = .ok f := by
  obtain ⟨cs, h1, h2, _⟩ := C61_stack (axis := axis)
  have hg : ∀ i (b : SceneBody3), stackOfSpheres.bodies[i]? = some b → b = ⟨.sphere 1, noMesh, false⟩ := fun i b hb => by
    have := List.mem_of_getElem? hb
    simpa [stackOfSpheres] using this
  have hall : ∀ c ∈ cs, ¬c.MeshInCylinder ∧ c.Direct := fun c hc => by
    have hd := (direct3_of_no_portals h1 hc).1
    cases Step3.made_activeSet h1 hc with
    | cylinderBody i k a verts vtx cyl ha haf hga hv hp => rw [hg i a ha] at hga; cases hga
    | _ => exact ⟨fun h => h, hd⟩
  obtain ⟨f, hf⟩ := (C69_rb3d_written (s := stackOfSpheres) (v := v) (cs := cs) (alpha := List.replicate cs.length 1)
    (beta := List.replicate (2 * cs.length) 1) (dt := 1)).mpr ⟨fun c hc => (hall c hc).1, by simp, by simp⟩
  exact ⟨cs, f, h1, h2, fun c hc => (hall c hc).2, hf⟩

/-- Non-vacuity of `C69_rb2d_partial`: two discs on the ground -/
theorem C69_stack2 (junk : ℝ → ℤ) : ∃ cs f, stackOfDiscs.computeActiveSet2 junk [] = .ok cs ∧ cs.filterMap Contact2.pair = [(0, 1)] ∧ (∀ c ∈ cs, c.Direct) ∧
    Contact2.exportForces stackOfDiscs.q0 cs (List.replicate cs.length 1) (List.replicate cs.length 1) 1 = .ok f := by
  obtain ⟨cs, h1, h2, _⟩ := C57_stack junk
  obtain ⟨f, hf⟩ := (C69_rb2d_written (s := stackOfDiscs) (cs := cs) (alpha := List.replicate cs.length 1) (beta := List.replicate cs.length 1) (dt := 1)).mpr
    ⟨by simp, by simp⟩
  exact ⟨cs, f, h1, h2, fun c hc => Step2.direct_of_no_portals h1 hc, hf⟩

/-- Non-vacuity of `C69_false_linear` and `C69_rb3d_momentum_partial`: for the two spheres on the ground in a cylinder all hypotheses hold. -/
theorem C69_linear_example (axis : Vec3 → Vec3 → Vec3) (v : Blocks3) : ∃ pre c D N B,
    stackOfSpheres.computeActiveSet3 axis [] = .ok (pre ++ [c]) ∧
    (∀ d ∈ pre ++ [c], ¬d.MeshInCylinder ∧ d.normal stackOfSpheres.q0 ⬝ᵥ d.normal stackOfSpheres.q0 = 1 ∧ d.simulatedBodies.2 ≠ some d.simulatedBodies.1) ∧
    Contact3.linearFrictionBasis stackOfSpheres.nb stackOfSpheres.q0 v (pre ++ [c]) 4 = .ok D ∧
    Contact3.computeN stackOfSpheres.nb stackOfSpheres.q0 (pre ++ [c]) = .ok N ∧
    Contact3.smoothFrictionBasis stackOfSpheres.nb stackOfSpheres.q0 (pre ++ [c])
      (Contact3.contactBases stackOfSpheres.nb stackOfSpheres.q0 v (pre ++ [c])) = .ok B := by
  obtain ⟨cs, h1, h2, _⟩ := C61_stack (axis := axis)
  have hg : ∀ i (b : SceneBody3), stackOfSpheres.bodies[i]? = some b → b = ⟨.sphere 1, noMesh, false⟩ := fun i b hb => by
    have := List.mem_of_getElem? hb
    simpa [stackOfSpheres] using this
  have hx : ∀ i, stackOfSpheres.q0.x i = ![0, 1, 0] ∨ stackOfSpheres.q0.x i = ![0, 3, 0] := fun i => by
    simp only [stackOfSpheres]
    split
    · exact Or.inl rfl
    · exact Or.inr rfl
  have hall : ∀ d ∈ cs, (∃ i j n p ra rb, d = .sphereSphere i j n p ra rb ∧ n ⬝ᵥ n = 1 ∧ j ≠ i) ∨ (∃ i r p k, d = .planeSphere i r p k ∧ p.n ⬝ᵥ p.n = 1) ∨
      ∃ i r cyl k, d = .cylinderSphere i r cyl k ∧ d.normal stackOfSpheres.q0 ⬝ᵥ d.normal stackOfSpheres.q0 = 1 := by
    intro d hd
    obtain ⟨hdir, hnb⟩ := direct3_of_no_portals h1 hd
    have hpr : ∀ p, d.pair = some p → p = (0, 1) := fun p hp => by
      have : p ∈ cs.filterMap Contact3.pair := List.mem_filterMap.mpr ⟨d, hd, hp⟩
      rw [h2, List.mem_singleton] at this
      exact this
    cases Step3.made_activeSet h1 hd with
    | bodyBody i j p n b hi hb hf =>
      exact absurd rfl (hnb (by simp [stackOfSpheres]) _ _ _ _ _)
    | sphereSphere i j a b ra rb ha hb haf hbf hga hgb =>
      left
      have hp := hpr _ rfl
      have hij : (i = 0 ∧ j = 1) ∨ (i = 1 ∧ j = 0) := by
        have e1 := congrArg Prod.fst hp
        have e2 := congrArg Prod.snd hp
        dsimp only at e1 e2
        omega
      refine ⟨_, _, _, _, _, _, rfl, (normalized3_dot ?_).1, by omega⟩
      rcases hij with ⟨rfl, rfl⟩ | ⟨rfl, rfl⟩ <;> simp [stackOfSpheres, dot3_exp] <;> norm_num
    | kinematicSphere i k a b ra rb ha hb haf hbf hga hgb => rw [hg k b hb] at hbf; cases hbf
    | kinematicBody i k p n b hi hb hf => rw [hg k b hb] at hf; cases hf
    | planeSphere i k a r p ha haf hga hp =>
      right; left
      refine ⟨_, _, _, _, rfl, ?_⟩
      have := List.mem_of_getElem? hp
      simp only [stackOfSpheres, List.mem_singleton] at this
      subst this
      simp [dot3_exp]
    | planeBox i k corner a w p ha haf hga hp => rw [hg i a ha] at hga; cases hga
    | planeBody i k a verts vtx p ha haf hga hv hp => rw [hg i a ha] at hga; cases hga
    | cylinderSphere i k a r cyl ha haf hga hp =>
      right; right
      refine ⟨_, _, _, _, rfl, (normalized3_dot ?_).1⟩
      have := List.mem_of_getElem? hp
      simp only [stackOfSpheres, List.mem_singleton] at this
      subst this
      rcases hx i with h | h <;> rw [h] <;> simp [Cylinder3.offset, dot3_exp]
    | cylinderBody i k a verts vtx cyl ha haf hga hv hp => rw [hg i a ha] at hga; cases hga
    | teleported u w a b ra rb ha hb haf hbf hga hgb hvia => exact hdir.elim
    | kinematicTeleported u w a b ra rb ha hb haf hbf hga hgb hvia => exact hdir.elim
  have hne : cs ≠ [] := by
    rintro rfl
    cases h2
  obtain ⟨pre, c, rfl⟩ : ∃ pre c, cs = pre ++ [c] := ⟨cs.dropLast, cs.getLast hne, (List.dropLast_append_getLast hne).symm⟩
  have hdisk : ∀ d ∈ pre ++ [c], (∃ x, d.frictionDisk stackOfSpheres.nb stackOfSpheres.q0 v 4 = .ok x) ∧ (∃ x, d.gradg stackOfSpheres.nb stackOfSpheres.q0 = .ok x) ∧
      ∀ t, ∃ x, d.frictionColumn stackOfSpheres.nb stackOfSpheres.q0 t = .ok x := fun d hd => by
    rcases hall d hd with ⟨i, j, n, p, ra, rb, rfl, _⟩ | ⟨i, r, p, k, rfl, _⟩ | ⟨i, r, cyl, k, rfl, _⟩ <;> exact ⟨⟨_, rfl⟩, ⟨_, rfl⟩, fun t => ⟨_, rfl⟩⟩
  obtain ⟨D, hD⟩ := forEach_all (f := fun d : Contact3 => (d.frictionDisk stackOfSpheres.nb stackOfSpheres.q0 v 4).bind fun l =>
      .ok (l.map fun e => Contact3.column e.1)) (l := pre ++ [c]) fun d hd => by
    obtain ⟨x, hx⟩ := (hdisk d hd).1
    exact ⟨_, by rw [hx]; rfl⟩
  obtain ⟨N, hN⟩ := forEach_all (f := fun d : Contact3 => (d.gradg stackOfSpheres.nb stackOfSpheres.q0).bind fun g => .ok (Contact3.column g))
      (l := pre ++ [c]) fun d hd => by
    obtain ⟨x, hx⟩ := (hdisk d hd).2.1
    exact ⟨_, by rw [hx]; rfl⟩
  obtain ⟨B, hB⟩ := forEach_all (f := fun (ci : Contact3 × Nat) => forEach (fun s =>
      (entry (Contact3.contactBases stackOfSpheres.nb stackOfSpheres.q0 v (pre ++ [c])) (3 * ci.2 + s + 1)).bind fun t =>
      (ci.1.frictionColumn stackOfSpheres.nb stackOfSpheres.q0 t).bind fun g => .ok (Contact3.column g)) (List.range 2)) (l := (pre ++ [c]).zipIdx)
      fun ⟨d, k⟩ hdk => by
    have hk : (pre ++ [c])[k]? = some d := List.mk_mem_zipIdx_iff_getElem?.mp hdk
    obtain ⟨e1, e2, e3⟩ := Contact3.bases_get stackOfSpheres.nb stackOfSpheres.q0 v hk
    refine forEach_all fun s hs => ?_
    rw [show List.range 2 = [0, 1] from by decide] at hs
    simp only [List.mem_cons, List.not_mem_nil, or_false] at hs
    have hfc := (hdisk d (List.mem_of_getElem? hk)).2.2
    rcases hs with rfl | rfl
    · obtain ⟨x, hx⟩ := hfc (d.basis stackOfSpheres.nb stackOfSpheres.q0 v).2.1
      refine ⟨Contact3.column x, ?_⟩
      rw [entry_some (show (Contact3.contactBases _ _ _ _)[3 * k + 0 + 1]? = _ from e2), Outcome.bind, hx]
      rfl
    · obtain ⟨x, hx⟩ := hfc (d.basis stackOfSpheres.nb stackOfSpheres.q0 v).2.2
      refine ⟨Contact3.column x, ?_⟩
      rw [entry_some (show (Contact3.contactBases _ _ _ _)[3 * k + 1 + 1]? = _ from e3), Outcome.bind, hx]
      rfl
  refine ⟨pre, c, D.flatten, N, B.flatten, h1, fun d hd => ?_, ?_, hN, ?_⟩
  · rcases hall d hd with ⟨i, j, n, p, ra, rb, rfl, hn, hij⟩ | ⟨i, r, p, k, rfl, hn⟩ | ⟨i, r, cyl, k, rfl, hn⟩
    · exact ⟨fun h => h, hn, fun h => hij (Option.some.inj h)⟩
    · exact ⟨fun h => h, hn, fun h => by cases h⟩
    · exact ⟨fun h => h, hn, fun h => by cases h⟩
  · unfold Contact3.linearFrictionBasis
    rw [hD]
    rfl
  · unfold Contact3.smoothFrictionBasis
    rw [hB]
    rfl

end Scisim
