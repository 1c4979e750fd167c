import Verif.Lemmas.Picture3DLines
/-!
# C83: the picture of the spatial program shows the state
-/

namespace Scisim
namespace Picture3

open Matrix Real

variable {axis : Vec3 → Vec3 → Vec3}

theorem apply_pose (x : Vec3) (R : Mat3) (y : Vec3) : ((GlMatrix.ident.translated x).multiplied R).apply y = R *ᵥ y + x := by
  rw [apply_multiplied, apply_translated]
  unfold GlMatrix.apply GlMatrix.ident
  simp only [Matrix.one_mulVec, add_zero]
  rw [add_comm]

theorem paintOneBody_ok {gs : List PicGeometry} {b : PicBody} {ds : List Draw} :
    paintOneBody gs b = .ok ds ↔ ∃ g, gs[b.geometry]? = some g ∧ paintBody ((GlMatrix.ident.translated b.x).multiplied b.R) g b.shown = .ok ds := by
  have hs : (if b.scripted = true then gray else b.color) = b.shown := by
    unfold PicBody.shown gray
    rfl
  unfold paintOneBody
  rw [Outcome.bind_ok_iff]
  simp only [column_ok, hs]

theorem lines_ok {α : Type} (l : List α) (i : ℕ) (f : α → List Draw) (ds : List Draw) :
    ((column l i).bind fun a => .ok (f a)) = .ok ds ↔ ∃ a, l[i]? = some a ∧ f a = ds := by
  rw [Outcome.bind_ok_iff]
  simp only [column_ok, Outcome.ok.injEq]

/-- The four parts of a picture -/
theorem paintSystem_ok {gen : ℕ → Color} {s : Scene} {ds : List Draw} (h : paintSystem axis gen s = .ok ds) : ∃ a b c d,
    collect (paintOneBody s.geometries) s.bodies = .ok a ∧
    collect (fun r => (column s.planes r.1).bind fun p => .ok (drawPlane axis black p r.2)) s.planeRenderers = .ok b ∧
    collect (fun r => (column s.cylinders r.1).bind fun c => .ok (drawStaticCylinder axis c r.2)) s.cylinderRenderers = .ok c ∧
    collect (fun (r, k) => (column s.portals r.1).bind fun p => .ok (drawPortal axis (gen k) p r.2.1 r.2.2)) s.portalRenderers.zipIdx = .ok d ∧
    ds = a ++ b ++ c ++ d := by
  unfold paintSystem at h
  obtain ⟨a, ha, h⟩ := Outcome.bind_ok_iff.mp h
  obtain ⟨b, hb, h⟩ := Outcome.bind_ok_iff.mp h
  obtain ⟨c, hc, h⟩ := Outcome.bind_ok_iff.mp h
  obtain ⟨d, hd, h⟩ := Outcome.bind_ok_iff.mp h
  simp only [Outcome.ok.injEq] at h
  exact ⟨a, b, c, d, ha, hb, hc, hd, h.symm⟩

theorem zipIdx_fst {α : Type} (P : α → Prop) (l : List α) : (∀ a ∈ l.zipIdx, P a.1) ↔ ∀ a ∈ l, P a := by
  constructor
  · intro h a ha
    obtain ⟨k, hk, rfl⟩ := List.getElem_of_mem ha
    exact h (l[k], k) (List.mem_zipIdx_iff_getElem?.mpr (by simp [hk]))
  · intro h a ha
    exact h _ (List.mem_of_getElem? (List.mem_zipIdx_iff_getElem?.mp ha))

/-- **C83, the program paints without a fault exactly if every index refers to something.** -/
theorem C83_runs (axis : Vec3 → Vec3 → Vec3) (gen : ℕ → Color) (s : Scene) : (∃ ds, paintSystem axis gen s = .ok ds) ↔ s.Indexed := by
  have hb : (∃ a, collect (paintOneBody s.geometries) s.bodies = .ok a) ↔ ∀ b ∈ s.bodies, ∃ g, s.geometries[b.geometry]? = some g ∧
      ∀ verts, g.geometry = .mesh verts → ∀ f ∈ g.faces, f.1 < verts.length ∧ f.2.1 < verts.length ∧ f.2.2 < verts.length := by
    rw [collect_iff]
    simp only [paintOneBody_ok]
    refine forall₂_congr fun b _ => ?_
    rw [exists_comm]
    refine exists_congr fun g => ?_
    rw [exists_and_left, paintBody_iff]
  have hl : ∀ {α β : Type} (l : List α) (i : β → ℕ) (f : β → α → List Draw) (rs : List β),
      (∃ a, collect (fun r => (column l (i r)).bind fun a => .ok (f r a)) rs = .ok a) ↔ ∀ r ∈ rs, i r < l.length := by
    intro α β l i f rs
    rw [collect_iff]
    refine forall₂_congr fun r _ => ?_
    simp only [lines_ok]
    constructor
    · rintro ⟨_, a, h, _⟩
      exact (List.getElem?_eq_some_iff.mp h).1
    · intro h
      exact ⟨_, l[i r], List.getElem?_eq_getElem h, rfl⟩
  have hp := hl s.planes (fun r : ℕ × (ℝ × ℝ) => r.1) (fun r p => drawPlane axis black p r.2) s.planeRenderers
  have hc := hl s.cylinders (fun r : ℕ × ℝ => r.1) (fun r c => drawStaticCylinder axis c r.2) s.cylinderRenderers
  have hq := hl s.portals (fun r : (ℕ × (ℝ × ℝ) × (ℝ × ℝ)) × ℕ => r.1.1) (fun r p => drawPortal axis (gen r.2) p r.1.2.1 r.1.2.2) s.portalRenderers.zipIdx
  have hz : (∀ r ∈ s.portalRenderers.zipIdx, r.1.1 < s.portals.length) ↔ ∀ r ∈ s.portalRenderers, r.1 < s.portals.length :=
    zipIdx_fst (fun r : ℕ × (ℝ × ℝ) × (ℝ × ℝ) => r.1 < s.portals.length) s.portalRenderers
  rw [hz] at hq
  unfold Scene.Indexed
  rw [← hb, ← hp, ← hc, ← hq]
  constructor
  · rintro ⟨ds, h⟩
    obtain ⟨a, b, c, d, ha, hb, hc, hd, -⟩ := paintSystem_ok h
    exact ⟨⟨a, ha⟩, ⟨b, hb⟩, ⟨c, hc⟩, ⟨d, hd⟩⟩
  · rintro ⟨⟨a, ha⟩, ⟨b, hb⟩, ⟨c, hc⟩, ⟨d, hd⟩⟩
    refine ⟨a ++ b ++ c ++ d, ?_⟩
    exact Outcome.bind_ok_iff.mpr ⟨a, ha, Outcome.bind_ok_iff.mpr ⟨b, hb, Outcome.bind_ok_iff.mpr ⟨c, hc, Outcome.bind_ok_iff.mpr ⟨d, hd, rfl⟩⟩⟩⟩

theorem shown_iff {gen : ℕ → Color} {s : Scene} {ds : List Draw} (h : paintSystem axis gen s = .ok ds) (paint : Paint) (p : Vec3) :
    Shown ds paint p ↔ ∃ b ∈ s.bodies, ∃ g, s.geometries[b.geometry]? = some g ∧
      ∃ da, paintBody ((GlMatrix.ident.translated b.x).multiplied b.R) g b.shown = .ok da ∧ Shown da paint p := by
  obtain ⟨a, b, c, d, ha, hb, hc, hd, rfl⟩ := paintSystem_ok h
  rw [shown_append, shown_append, shown_append]
  have n1 : ¬Shown b paint p := by
    rw [shown_collect hb]
    rintro ⟨r, _, da, e, q, hq, _, hcov⟩
    rw [lines_ok] at e
    obtain ⟨pl, -, rfl⟩ := e
    exact no_covers (hollow_plane _ _ _ _ q hq) p hcov
  have n2 : ¬Shown c paint p := by
    rw [shown_collect hc]
    rintro ⟨r, _, da, e, q, hq, _, hcov⟩
    rw [lines_ok] at e
    obtain ⟨pl, -, rfl⟩ := e
    exact no_covers (hollow_cylinder _ _ _ q hq) p hcov
  have n3 : ¬Shown d paint p := by
    rw [shown_collect hd]
    rintro ⟨⟨r, k⟩, _, da, e, q, hq, _, hcov⟩
    simp only at e
    rw [lines_ok] at e
    obtain ⟨pl, -, rfl⟩ := e
    exact no_covers (hollow_portal _ _ _ _ _ q hq) p hcov
  simp only [n1, n2, n3, or_false]
  rw [shown_collect ha]
  refine exists_congr fun b => and_congr_right fun _ => ?_
  simp only [paintOneBody_ok]
  constructor
  · rintro ⟨da, ⟨g, hg, e⟩, hs⟩
    exact ⟨g, hg, da, e, hs⟩
  · rintro ⟨g, hg, da, e, hs⟩
    exact ⟨da, ⟨g, hg, e⟩, hs⟩

/-- **C83, bodies, soundness.** Every surface in the picture belongs to a body: it is where the pose of the body takes a point at which the geometry of the body
has this colour. -/
theorem C83_bodies_sound {gen : ℕ → Color} {s : Scene} {ds : List Draw} (h : paintSystem axis gen s = .ok ds) (hpos : ∀ g ∈ s.geometries, g.Positive)
    {paint : Paint} {p : Vec3} (hp : Shown ds paint p) :
    ∃ b ∈ s.bodies, ∃ g, s.geometries[b.geometry]? = some g ∧ ∃ y, p = b.R *ᵥ y + b.x ∧ g.LooksLike b.shown paint y := by
  rw [shown_iff h] at hp
  obtain ⟨b, hb, g, hg, da, e, hs⟩ := hp
  obtain ⟨y, hy, hl⟩ := body_sound (hpos g (List.mem_of_getElem? hg)) e hs
  rw [apply_pose] at hy
  exact ⟨b, hb, g, hg, y, hy, hl⟩

/-- **C83, bodies, completeness.** Every body is in the picture, whole, in its colour and at its place. -/
theorem C83_bodies_complete {gen : ℕ → Color} {s : Scene} {ds : List Draw} (h : paintSystem axis gen s = .ok ds) (hpos : ∀ g ∈ s.geometries, g.Positive)
    {b : PicBody} (hb : b ∈ s.bodies) :
    ∃ g, s.geometries[b.geometry]? = some g ∧ g.Complete b.shown fun paint y => Shown ds paint (b.R *ᵥ y + b.x) := by
  obtain ⟨hi, -⟩ := (C83_runs axis gen s).mp ⟨ds, h⟩
  obtain ⟨g, hg, hf⟩ := hi b hb
  obtain ⟨da, e⟩ := (paintBody_iff ((GlMatrix.ident.translated b.x).multiplied b.R) g b.shown).mpr hf
  refine ⟨g, hg, ?_⟩
  have hc := body_complete (hpos g (List.mem_of_getElem? hg)) e
  have key : ∀ paint y, Shown da paint (((GlMatrix.ident.translated b.x).multiplied b.R).apply y) → Shown ds paint (b.R *ᵥ y + b.x) := by
    intro paint y hs
    rw [apply_pose] at hs
    rw [shown_iff h]
    exact ⟨b, hb, g, hg, da, e, hs⟩
  unfold PicGeometry.Complete at hc ⊢
  split at hc
  · exact fun y hy => key _ _ (hc y hy)
  · intro u hu
    obtain ⟨h1, h2⟩ := hc u hu
    exact ⟨fun k => (h1 k).imp fun t ht => ⟨ht.1, ht.2.1, key _ _ ht.2.2⟩, fun k => (h2 k).imp fun t ht => ⟨ht.1, ht.2.1, key _ _ ht.2.2⟩⟩
  · exact ⟨fun q hq u hu => (hc.1 q hq u hu).imp fun t ht => ⟨ht.1, ht.2.1, key _ _ ht.2.2⟩,
      fun e he a h0 h1 u hu hi => (hc.2 e he a h0 h1 u hu hi).imp fun t ht => ⟨ht.1, ht.2.1, key _ _ ht.2.2⟩⟩
  · exact fun f hf u v w h1 h2 h3 y hy => key _ _ (hc f hf u v w h1 h2 h3 y hy)

/-- **C83, lines.** For a unit vector that is not almost straight down there are two unit vectors at right angles to it and to each other, such that in every picture the lines
are exactly these: for every plane that is to be shown the window of that size about its point; for every cylinder that is to be shown two rings and four
lines along it, turned by the angle of the cylinder; and for every portal that is to be shown the windows of its two planes, in the colour of the portal. -/
theorem C83_lines_partial (haxis : GoodAxis axis) : ∃ e : Vec3 → Vec3 × Vec3, (∀ n, NotAlmostDown n → Orthonormal3 n (e n).1 (e n).2) ∧
    ∀ gen s ds, paintSystem axis gen s = .ok ds → (∀ c ∈ s.cylinders, NotAlmostDown c.cylinder.axis) → ∀ paint q,
      Lined ds paint q ↔
        (∃ r ∈ s.planeRenderers, ∃ p, s.planes[r.1]? = some p ∧ paint = .plain (0, 0, 0) ∧ q ∈ windowSet p.x (r.2.1 • (e p.n).1) (r.2.2 • (e p.n).2)) ∨
        (∃ r ∈ s.cylinderRenderers, ∃ c, s.cylinders[r.1]? = some c ∧ paint = .plain (0, 0, 0) ∧
          q ∈ cageSet c.cylinder.x c.cylinder.axis (turned c.cylinder.axis c.theta (e c.cylinder.axis).1) (turned c.cylinder.axis c.theta (e c.cylinder.axis).2)
            c.cylinder.r r.2) ∨
        (∃ k r, s.portalRenderers[k]? = some r ∧ ∃ p, s.portals[r.1]? = some p ∧ paint = .plain (gen k) ∧
          (q ∈ windowSet p.planeA.x (r.2.1.1 • (e p.planeA.n).1) (r.2.1.2 • (e p.planeA.n).2) ∨
           q ∈ windowSet p.planeB.x (r.2.2.1 • (e p.planeB.n).1) (r.2.2.2 • (e p.planeB.n).2))) := by
  refine ⟨tangents axis, fun n hn => tangents_orthonormal haxis hn, ?_⟩
  intro gen s ds h hcyl paint q
  obtain ⟨a, b, c, d, ha, hb, hc, hd, rfl⟩ := paintSystem_ok h
  have n1 : ¬Lined a paint q := by
    rw [lined_collect ha]
    rintro ⟨r, _, da, e, f, hf, _, hm⟩
    rw [paintOneBody_ok] at e
    obtain ⟨g, -, e⟩ := e
    exact (solid_body e f hf).no_marks q hm
  have e1 : Lined b paint q ↔ ∃ r ∈ s.planeRenderers, ∃ p, s.planes[r.1]? = some p ∧ paint = .plain (0, 0, 0) ∧
      q ∈ windowSet p.x (r.2.1 • (tangents axis p.n).1) (r.2.2 • (tangents axis p.n).2) := by
    rw [lined_collect hb]
    refine exists_congr fun r => and_congr_right fun _ => ?_
    simp only [lines_ok]
    constructor
    · rintro ⟨_, ⟨p, hp, rfl⟩, hl⟩
      exact ⟨p, hp, (lined_plane axis black p r.2 paint q).mp hl⟩
    · rintro ⟨p, hp, hl⟩
      exact ⟨_, ⟨p, hp, rfl⟩, (lined_plane axis black p r.2 paint q).mpr hl⟩
  have e2 : Lined c paint q ↔ ∃ r ∈ s.cylinderRenderers, ∃ c, s.cylinders[r.1]? = some c ∧ paint = .plain (0, 0, 0) ∧
      q ∈ cageSet c.cylinder.x c.cylinder.axis (turned c.cylinder.axis c.theta (tangents axis c.cylinder.axis).1)
        (turned c.cylinder.axis c.theta (tangents axis c.cylinder.axis).2) c.cylinder.r r.2 := by
    rw [lined_collect hc]
    refine exists_congr fun r => and_congr_right fun _ => ?_
    simp only [lines_ok]
    constructor
    · rintro ⟨_, ⟨p, hp, rfl⟩, hl⟩
      exact ⟨p, hp, (lined_cylinder haxis p (hcyl p (List.mem_of_getElem? hp)) r.2 paint q).mp hl⟩
    · rintro ⟨p, hp, hl⟩
      exact ⟨_, ⟨p, hp, rfl⟩, (lined_cylinder haxis p (hcyl p (List.mem_of_getElem? hp)) r.2 paint q).mpr hl⟩
  have e3 : Lined d paint q ↔ ∃ k r, s.portalRenderers[k]? = some r ∧ ∃ p, s.portals[r.1]? = some p ∧ paint = .plain (gen k) ∧
      (q ∈ windowSet p.planeA.x (r.2.1.1 • (tangents axis p.planeA.n).1) (r.2.1.2 • (tangents axis p.planeA.n).2) ∨
       q ∈ windowSet p.planeB.x (r.2.2.1 • (tangents axis p.planeB.n).1) (r.2.2.2 • (tangents axis p.planeB.n).2)) := by
    rw [lined_collect hd]
    have hlp : ∀ k (r : ℕ × (ℝ × ℝ) × (ℝ × ℝ)) (p : Portal3), Lined (drawPortal axis (gen k) p r.2.1 r.2.2) paint q ↔ paint = .plain (gen k) ∧
        (q ∈ windowSet p.planeA.x (r.2.1.1 • (tangents axis p.planeA.n).1) (r.2.1.2 • (tangents axis p.planeA.n).2) ∨
         q ∈ windowSet p.planeB.x (r.2.2.1 • (tangents axis p.planeB.n).1) (r.2.2.2 • (tangents axis p.planeB.n).2)) := by
      intro k r p
      unfold drawPortal
      rw [lined_append, lined_plane, lined_plane, ← and_or_left]
      rfl
    constructor
    · rintro ⟨⟨r, k⟩, hr, da, e, hl⟩
      simp only at e
      rw [lines_ok] at e
      obtain ⟨p, hp, rfl⟩ := e
      exact ⟨k, r, List.mem_zipIdx_iff_getElem?.mp hr, p, hp, (hlp k r p).mp hl⟩
    · rintro ⟨k, r, hr, p, hp, hl⟩
      refine ⟨(r, k), List.mem_zipIdx_iff_getElem?.mpr hr, _, ?_, (hlp k r p).mpr hl⟩
      simp only
      rw [lines_ok]
      exact ⟨p, hp, rfl⟩
  rw [lined_append, lined_append, lined_append, e1, e2, e3]
  simp only [n1, false_or]
  rw [or_assoc]

/-- **C83, windows lie in their planes**: with the vectors of `C83_lines_partial` every point of the window of a plane lies in the plane. -/
theorem C83_window_in_plane {n t0 t1 x q : Vec3} (h : Orthonormal3 n t0 t1) {a b : ℝ} (hq : q ∈ windowSet x (a • t0) (b • t1)) : inner3 n (q - x) = 0 := by
  obtain ⟨-, -, -, h0, -, h1⟩ := h
  obtain ⟨s, t, -, -, -, rfl⟩ := hq
  have h1' : inner3 n t1 = 0 := by rw [← h1]; unfold inner3; ring
  have e : inner3 n (x + s • a • t0 + t • b • t1 - x) = s * a * inner3 n t0 + t * b * inner3 n t1 := by
    unfold inner3
    simp only [Pi.add_apply, Pi.sub_apply, Pi.smul_apply, smul_eq_mul]
    ring
  rw [e, h0, h1']; ring

/-- **C83, rings lie on their cylinders**: every corner of a ring, and every point of the lines along a cylinder, is at distance `r` from the axis. -/
theorem C83_cage_corners {a u w x : Vec3} (h : Orthonormal3 a u w) (r h' φ : ℝ) :
    inner3 a (x + h' • a + (r * cos φ) • u + (r * sin φ) • w - (x + h' • a)) = 0 ∧ sqLen (x + h' • a + (r * cos φ) • u + (r * sin φ) • w - (x + h' • a)) = r ^ 2 := by
  obtain ⟨ha, hu, hw, h0, h01, h1⟩ := h
  have h1' : inner3 a w = 0 := by rw [← h1]; unfold inner3; ring
  have t := sin_sq_add_cos_sq φ
  constructor
  · have e : inner3 a (x + h' • a + (r * cos φ) • u + (r * sin φ) • w - (x + h' • a)) = r * cos φ * inner3 a u + r * sin φ * inner3 a w := by
      unfold inner3
      simp only [Pi.add_apply, Pi.sub_apply, Pi.smul_apply, smul_eq_mul]
      ring
    rw [e, h0, h1']; ring
  · have e : sqLen (x + h' • a + (r * cos φ) • u + (r * sin φ) • w - (x + h' • a)) =
        r ^ 2 * (cos φ ^ 2 * inner3 u u + sin φ ^ 2 * inner3 w w + 2 * cos φ * sin φ * inner3 u w) := by
      unfold inner3 sqLen
      simp only [Pi.add_apply, Pi.sub_apply, Pi.smul_apply, smul_eq_mul]
      ring
    rw [e, hu, hw, h01]
    linear_combination r ^ 2 * t

/-- **C83, the sphere renderer** for any number of subdivisions for which the number of vertices fits in 32 bits: it fills the memory it asked for exactly, every
point of its surface has a distance from the centre that falls short of one by little, and there is a point of its surface in every direction. -/
theorem C83_sphere (n : ℕ) (hn : 6 * 4 ^ n < 2 ^ 32) (c e : Color) : ∃ verts ds, generateSphere n = .ok verts ∧ verts.length = 6 * 4 ^ n ∧ verts.length = sphereCapacity n ∧
    drawSphere n GlMatrix.ident c e = .ok ds ∧
    (∀ paint y, Shown ds paint y → 4 ^ n / (4 ^ n + 2) ≤ sqLen y ∧ sqLen y ≤ 1 ∧ (paint = tinted (3 / 10) 1 c ∨ paint = tinted (3 / 10) 1 e)) ∧
    ∀ u, sqLen u = 1 → ∃ t : ℝ, 0 ≤ t ∧ ∃ paint, Shown ds paint (t • u) := by
  have hid : ∀ y, GlMatrix.ident.apply y = y := fun y => by simp [GlMatrix.apply, GlMatrix.ident]
  obtain ⟨h1, h2⟩ := generateSphere_ok n hn
  refine ⟨_, _, h1, h2, ?_, drawSphere_ok hn _ c e, ?_, ?_⟩
  · have h := h1
    unfold generateSphere at h
    obtain ⟨a, -, h⟩ := Outcome.bind_ok_iff.mp h
    obtain ⟨b, -, h⟩ := Outcome.bind_ok_iff.mp h
    split at h
    · next hl =>
      simp only [Outcome.ok.injEq] at h
      rw [← h]; exact hl
    · exact absurd h (by simp)
  · intro paint y hy
    obtain ⟨z, hz, k1, k2, k3⟩ := sphere_sound hy
    rw [hid] at hz
    subst hz
    exact ⟨k1, k2, k3.imp (·.2) (·.2)⟩
  · intro u hu
    obtain ⟨k1, k2⟩ := sphere_complete n GlMatrix.ident c e hu
    rcases le_total 0 (u 0 * u 1) with k | k
    · obtain ⟨t, ht, -, -, hs⟩ := k1 k
      rw [hid] at hs
      exact ⟨t, ht, _, hs⟩
    · obtain ⟨t, ht, -, -, hs⟩ := k2 k
      rw [hid] at hs
      exact ⟨t, ht, _, hs⟩

/-! ## A scene that meets the hypotheses -/

/-- A turned box, a scripted sphere, a staple and a mesh; a plane, a cylinder and a portal -/
noncomputable def demo3 : Scene where
  geometries := [⟨.box ![1, 2, 3], []⟩, ⟨.sphere 2, []⟩, ⟨.staple ⟨2, 1, 1 / 10⟩, []⟩, ⟨.mesh [![0, 0, 0], ![1, 0, 0], ![0, 1, 0]], [(0, 1, 2)]⟩]
  bodies := [⟨0, ![1, 0, 0], !![0, -1, 0; 1, 0, 0; 0, 0, 1], false, (1, 0, 0)⟩, ⟨1, ![5, 0, 0], 1, true, (0, 1, 0)⟩, ⟨2, ![0, 5, 0], 1, false, (0, 0, 1)⟩,
    ⟨3, ![0, 0, 5], 1, false, (1, 1, 0)⟩]
  planes := [⟨![0, -1, 0], ![0, 1, 0], 0, 0⟩]
  cylinders := [⟨⟨0, ![1, 0, 0], 0, 0, 3⟩, 1⟩]
  portals := [⟨⟨![-4, 0, 0], ![1, 0, 0], 0, 0⟩, ⟨![4, 0, 0], ![-1, 0, 0], 0, 0⟩, 0⟩]
  planeRenderers := [(0, (10, 20))]
  cylinderRenderers := [(0, 7)]
  portalRenderers := [(0, (1, 2), (1, 2))]

theorem demo3_indexed : demo3.Indexed := by
  refine ⟨?_, ?_, ?_, ?_⟩
  · intro b hb
    simp only [demo3, List.mem_cons, List.not_mem_nil, or_false] at hb
    rcases hb with rfl | rfl | rfl | rfl
    · exact ⟨_, rfl, by intro v h; cases h⟩
    · exact ⟨_, rfl, by intro v h; cases h⟩
    · exact ⟨_, rfl, by intro v h; cases h⟩
    · refine ⟨_, rfl, ?_⟩
      intro v h f hf
      simp only [Geometry3D.mesh.injEq] at h
      subst h
      simp only [List.mem_singleton] at hf
      subst hf
      decide
  all_goals
    intro r hr
    simp only [demo3, List.mem_singleton] at hr
    subst hr
    decide

theorem demo3_positive : ∀ g ∈ demo3.geometries, g.Positive := by
  intro g hg
  simp only [demo3, List.mem_cons, List.not_mem_nil, or_false] at hg
  rcases hg with rfl | rfl | rfl | rfl
  · exact fun k => by fin_cases k <;> norm_num
  · show (0 : ℝ) < 2; norm_num
  · show (0 : ℝ) < 2 ∧ (0 : ℝ) < 1 ∧ (0 : ℝ) < 1 / 10; norm_num
  · trivial

example : ∃ ds, paintSystem (fun _ _ => ![1, 0, 0]) (fun _ => (1, 1, 1)) demo3 = .ok ds := (C83_runs _ _ _).mpr demo3_indexed

/-- The top of the box, which is turned a quarter about the z-axis, is where it should be and red. -/
example {ds : List Draw} (h : paintSystem axis (fun _ => (1, 1, 1)) demo3 = .ok ds) : Shown ds (.material (4 / 5, 0, 0) (9 / 10, 0, 0)) ![-1, 1 / 2, 3] := by
  obtain ⟨g, hg, hc⟩ := C83_bodies_complete h demo3_positive (b := ⟨0, ![1, 0, 0], !![0, -1, 0; 1, 0, 0; 0, 0, 1], false, (1, 0, 0)⟩) (by simp [demo3])
  obtain rfl : (⟨.box ![1, 2, 3], []⟩ : PicGeometry) = g := Option.some.inj hg
  have := hc ![1 / 2, 2, 3] ⟨fun k => by fin_cases k <;> norm_num [abs_le], 2, by simp⟩
  have e : (!![0, -1, 0; 1, 0, 0; 0, 0, 1] : Mat3) *ᵥ ![1 / 2, 2, 3] + ![1, 0, 0] = ![-1, 1 / 2, 3] := by
    apply vext <;> simp [Matrix.mulVec, dotProduct, Fin.sum_univ_three] <;> norm_num
  simp only [e] at this
  simpa [tinted, PicBody.shown] using this

example : ∀ c ∈ demo3.cylinders, NotAlmostDown c.cylinder.axis := by
  intro c hc
  simp only [demo3, List.mem_singleton] at hc
  subst hc
  constructor
  · simp [inner3]
  · left; norm_num

example : GoodAxis fun _ _ => ![1, 0, 0] := by simp [GoodAxis, inner3]

example : 6 * 4 ^ 14 < 2 ^ 32 := by norm_num

end Picture3
end Scisim
