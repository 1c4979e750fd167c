import Verif.Lemmas.Picture3DBodies
/-!
# Lemmas about the pictures of staples and of whole scenes
-/

namespace Scisim
namespace Picture3

open Matrix Real

/-! ## Staples -/

theorem shown_cylinder (r : ℝ) (M : GlMatrix) (c : Color) (paint : Paint) (p : Vec3) :
    Shown [drawCylinder (numSamples 4) r M (smooth c)] paint p ↔ tinted (3 / 10) 1 c = paint ∧ ∃ q ∈ tubeQuads 64 r, ∃ y, InQuad q.1 q.2.1 q.2.2.1 q.2.2.2 y ∧ p = M.apply y := by
  unfold drawCylinder
  rw [shown_cons, cylinderVertices_eq, covers_map4]
  simp only [shown_nil, or_false, smooth_eq]
  rfl

/-- The pieces of the picture of a staple -/
noncomputable def staplePieces (s : Staple) (M : GlMatrix) (c : Color) : List Draw :=
  let p := fun k => s.corners.getD k 0
  let cap := fun k => drawVertexArray (flat3 (quarter 4)) ((M.translated (p k)).scaled ![s.r, s.r, s.r]) c c
  let middle := p 1 1 + 1 / 2 * (p 0 1 - p 1 1)
  cap 0 ++ cap 1 ++ cap 2 ++ cap 3 ++
    [drawCylinder (numSamples 4) s.r ((M.translated ![0, p 1 1, 0]).scaled ![p 2 0 - p 1 0, 1, 1]) (smooth c),
     drawCylinder (numSamples 4) s.r (((M.translated ![p 0 0, middle, 0]).rotated 90 ![0, 0, 1]).scaled ![p 0 1 - p 1 1, 1, 1]) (smooth c),
     drawCylinder (numSamples 4) s.r (((M.translated ![p 2 0, middle, 0]).rotated 90 ![0, 0, 1]).scaled ![p 0 1 - p 1 1, 1, 1]) (smooth c)]

theorem renderStaple_ok (s : Staple) (M : GlMatrix) (c : Color) : renderStaple 4 s.corners s.r M c = .ok (staplePieces s M c) := by
  unfold Staple.corners renderStaple
  simp only [drawSphere_ok small4]
  rfl

theorem inner3_eq (a b : Vec3) : inner3 a b = a 0 * b 0 + a 1 * b 1 + a 2 * b 2 := rfl

theorem staple_sound {s : Staple} (hw : 0 < s.w) (hl : 0 < s.l) {M : GlMatrix} {c : Color} {paint : Paint} {p : Vec3} (h : Shown (staplePieces s M c) paint p) :
    ∃ y, p = M.apply y ∧ ((∃ p ∈ s.corners, NearSphere s.r (y - p)) ∨ ∃ e ∈ segments s, NearTube e.1 e.2 s.r y) ∧ paint = tinted (3 / 10) 1 c := by
  have cap : ∀ k < 4, Shown (drawVertexArray (flat3 (quarter 4)) ((M.translated (s.corners.getD k 0)).scaled ![s.r, s.r, s.r]) c c) paint p →
      ∃ y, p = M.apply y ∧ ((∃ p ∈ s.corners, NearSphere s.r (y - p)) ∨ ∃ e ∈ segments s, NearTube e.1 e.2 s.r y) ∧ paint = tinted (3 / 10) 1 c := by
    intro k hk h
    obtain ⟨y, hp, hn, hc⟩ := ball_sound h
    rw [apply_translated] at hp
    have hk' : k < s.corners.length := hk
    refine ⟨_, hp, .inl ⟨s.corners.getD k 0, ?_, by rwa [add_sub_cancel_left]⟩, ?_⟩
    · rw [List.getD_eq_getElem?_getD, List.getElem?_eq_getElem hk']; exact List.getElem_mem hk'
    · rcases hc with ⟨-, e⟩ | ⟨-, e⟩ <;> exact e
  unfold staplePieces at h
  simp only [shown_append] at h
  rcases h with (((h | h) | h) | h) | h
  · exact cap 0 (by norm_num) h
  · exact cap 1 (by norm_num) h
  · exact cap 2 (by norm_num) h
  · exact cap 3 (by norm_num) h
  · have split : ∀ a b d : Draw, Shown [a, b, d] paint p ↔ Shown [a] paint p ∨ Shown [b] paint p ∨ Shown [d] paint p := by
      intro a b d; simp only [shown_cons, shown_nil, or_false]
    rw [split] at h
    have h64 : ((64 : ℕ) : ℝ) = 64 := by norm_num
    simp only [shown_cylinder, Staple.corners, List.getD_cons_zero, List.getD_cons_succ] at h
    rcases h with ⟨hc, q, hq, y, hy, hp⟩ | ⟨hc, q, hq, y, hy, hp⟩ | ⟨hc, q, hq, y, hy, hp⟩
    all_goals
      obtain ⟨b0, b1, b2⟩ := tube_sound (by norm_num) hq hy
      rw [h64] at b1
      obtain ⟨t0, t1⟩ := abs_le.mp b0
    · rw [apply_scaled, apply_translated] at hp
      refine ⟨_, hp, .inr ⟨(![-(1 / 2) * s.w, -s.centerOfMassY, 0], ![1 / 2 * s.w, -s.centerOfMassY, 0]), by simp [segments, Staple.corners], 1 / 2 + y 0, by linarith, by linarith, ?_, ?_, ?_⟩, hc.symm⟩
      · simp [inner3_eq]; left; ring
      · simp [sqLen]
        have e : s.w * y 0 * 0 = 0 := by ring
        refine b1.trans (le_of_eq ?_)
        ring
      · simp [sqLen]
        refine le_trans (le_of_eq ?_) b2
        ring
    · rw [apply_scaled, apply_90, apply_translated] at hp
      refine ⟨_, hp, .inr ⟨(![-(1 / 2) * s.w, s.l - s.centerOfMassY, 0], ![-(1 / 2) * s.w, -s.centerOfMassY, 0]), by simp [segments, Staple.corners], 1 / 2 - y 0, by linarith, by linarith, ?_, ?_, ?_⟩, hc.symm⟩
      · simp [inner3_eq]; left; ring
      · simp [sqLen]
        refine b1.trans (le_of_eq ?_)
        ring
      · simp [sqLen]
        refine le_trans (le_of_eq ?_) b2
        ring
    · rw [apply_scaled, apply_90, apply_translated] at hp
      refine ⟨_, hp, .inr ⟨(![1 / 2 * s.w, -s.centerOfMassY, 0], ![1 / 2 * s.w, s.l - s.centerOfMassY, 0]), by simp [segments, Staple.corners], 1 / 2 + y 0, by linarith, by linarith, ?_, ?_, ?_⟩, hc.symm⟩
      · simp [inner3_eq]; left; ring
      · simp [sqLen]
        refine b1.trans (le_of_eq ?_)
        ring
      · simp [sqLen]
        refine le_trans (le_of_eq ?_) b2
        ring

theorem staple_complete {s : Staple} (hw : 0 < s.w) (hl : 0 < s.l) (hr : 0 < s.r) (M : GlMatrix) (c : Color) :
    (∀ p ∈ s.corners, ∀ u, sqLen u = 1 → ∃ t : ℝ, 0 ≤ t ∧ NearSphere s.r (t • u) ∧ Shown (staplePieces s M c) (tinted (3 / 10) 1 c) (M.apply (p + t • u))) ∧
    (∀ e ∈ segments s, ∀ a : ℝ, 0 ≤ a → a ≤ 1 → ∀ u, sqLen u = 1 → inner3 u (e.2 - e.1) = 0 →
      ∃ t : ℝ, s.r * cos (π / 64) ≤ t ∧ t ≤ s.r ∧ Shown (staplePieces s M c) (tinted (3 / 10) 1 c) (M.apply (e.1 + a • (e.2 - e.1) + t • u))) := by
  constructor
  · intro p hp u hu
    have cap : ∀ q, ∃ t : ℝ, 0 ≤ t ∧ NearSphere s.r (t • u) ∧
        Shown (drawVertexArray (flat3 (quarter 4)) ((M.translated q).scaled ![s.r, s.r, s.r]) c c) (tinted (3 / 10) 1 c) (M.apply (q + t • u)) := by
      intro q
      have := ball_complete (M.translated q) hr.le c c hu
      simp only [apply_translated] at this
      rcases le_total 0 (u 0 * u 1) with h | h
      · exact this.1 h
      · exact this.2 h
    obtain ⟨t, ht, hn, hs⟩ := cap p
    refine ⟨t, ht, hn, ?_⟩
    unfold staplePieces
    simp only [shown_append]
    simp only [Staple.corners, List.mem_cons, List.not_mem_nil, or_false] at hp
    rcases hp with rfl | rfl | rfl | rfl
    · exact .inl (.inl (.inl (.inl hs)))
    · exact .inl (.inl (.inl (.inr hs)))
    · exact .inl (.inl (.inr hs))
    · exact .inl (.inr hs)
  · intro e he a ha ha1 u hu ho
    have split : ∀ (x y z : Draw) (paint : Paint) (p : Vec3), Shown [x, y, z] paint p ↔ Shown [x] paint p ∨ Shown [y] paint p ∨ Shown [z] paint p := by
      intro x y z paint p; simp only [shown_cons, shown_nil, or_false]
    have h64 : ((64 : ℕ) : ℝ) = 64 := by norm_num
    unfold staplePieces
    simp only [shown_append]
    simp only [split, shown_cylinder]
    simp only [Staple.corners, List.getD_cons_zero, List.getD_cons_succ]
    have hab : |a - 1 / 2| ≤ 1 / 2 := by rw [abs_le]; constructor <;> linarith
    have hab' : |1 / 2 - a| ≤ 1 / 2 := by rw [abs_le]; constructor <;> linarith
    simp only [sqLen] at hu
    simp only [segments, Staple.corners, List.tail_cons, List.zip_cons_cons, List.zip_nil_right, List.mem_cons, List.not_mem_nil, or_false] at he
    rcases he with rfl | rfl | rfl
    · have u1 : u 1 = 0 := by
        simp [inner3_eq] at ho
        rcases ho with h | h
        · exact h
        · exfalso; linarith
      obtain ⟨ρ, r1, r2, q, hq, hi⟩ := tube_complete (n := 64) (by norm_num) hr.le (t := 1 / 2 - a) (a := -u 0) (b := u 2) hab' (by rw [u1] at hu; linarith)
      rw [h64] at r1
      refine ⟨ρ, r1, r2, .inr (.inr (.inl ⟨trivial, q, hq, _, hi, ?_⟩))⟩
      rw [apply_scaled, apply_90, apply_translated]
      congr 1
      apply vext <;> simp [u1] <;> ring
    · have u0 : u 0 = 0 := by
        simp [inner3_eq] at ho
        rcases ho with h | h
        · exact h
        · exfalso; linarith
      obtain ⟨ρ, r1, r2, q, hq, hi⟩ := tube_complete (n := 64) (by norm_num) hr.le (t := a - 1 / 2) (a := u 1) (b := u 2) hab (by rw [u0] at hu; linarith)
      rw [h64] at r1
      refine ⟨ρ, r1, r2, .inr (.inl ⟨trivial, q, hq, _, hi, ?_⟩)⟩
      rw [apply_scaled, apply_translated]
      congr 1
      apply vext <;> simp [u0] <;> ring
    · have u1 : u 1 = 0 := by
        simp [inner3_eq] at ho
        rcases ho with h | h
        · exact h
        · exact absurd h hl.ne'
      obtain ⟨ρ, r1, r2, q, hq, hi⟩ := tube_complete (n := 64) (by norm_num) hr.le (t := a - 1 / 2) (a := -u 0) (b := u 2) hab (by rw [u1] at hu; linarith)
      rw [h64] at r1
      refine ⟨ρ, r1, r2, .inr (.inr (.inr ⟨trivial, q, hq, _, hi, ?_⟩))⟩
      rw [apply_scaled, apply_90, apply_translated]
      congr 1
      apply vext <;> simp [u1] <;> ring

/-! ## Bodies -/

theorem body_sound {g : PicGeometry} (hg : g.Positive) {M : GlMatrix} {c : Color} {ds : List Draw} (h : paintBody M g c = .ok ds) {paint : Paint} {p : Vec3}
    (hp : Shown ds paint p) : ∃ y, p = M.apply y ∧ g.LooksLike c paint y := by
  unfold paintBody at h
  unfold PicGeometry.Positive at hg
  unfold PicGeometry.LooksLike
  split at h
  · next hw e =>
    simp only [e] at hg ⊢
    simp only [Outcome.ok.injEq] at h
    subst h
    exact (box_shown hg M c paint p).mp hp
  · next r e =>
    simp only [e]
    rw [paintSphere, drawSphere_ok small4] at h
    simp only [Outcome.ok.injEq] at h
    subst h
    exact ball_sound hp
  · next s e =>
    simp only [e] at hg ⊢
    rw [renderStaple_ok] at h
    simp only [Outcome.ok.injEq] at h
    subst h
    exact staple_sound hg.1 hg.2.1 hp
  · next verts e =>
    simp only [e]
    unfold paintTriangleMesh at h
    obtain ⟨vs, hv, h⟩ := Outcome.bind_ok_iff.mp h
    simp only [Outcome.ok.injEq] at h
    subst h
    obtain ⟨ts, rfl, h1, -⟩ := meshVertices_ok hv
    rw [shown_cons, covers_map3] at hp
    simp only [shown_nil, or_false] at hp
    obtain ⟨ec, t, ht, y, hy, hp⟩ := hp
    obtain ⟨f, hf, a, b, d⟩ := h1 t ht
    exact ⟨y, hp, ⟨f, hf, _, _, _, a, b, d, hy⟩, by rw [← ec, faceted_eq]⟩

theorem body_complete {g : PicGeometry} (hg : g.Positive) {M : GlMatrix} {c : Color} {ds : List Draw} (h : paintBody M g c = .ok ds) :
    g.Complete c fun paint y => Shown ds paint (M.apply y) := by
  unfold paintBody at h
  unfold PicGeometry.Positive at hg
  unfold PicGeometry.Complete
  split at h
  · next hw e =>
    simp only [e] at hg ⊢
    simp only [Outcome.ok.injEq] at h
    subst h
    exact fun y hy => (box_shown hg M c _ _).mpr ⟨y, rfl, hy, rfl⟩
  · next r e =>
    simp only [e] at hg ⊢
    rw [paintSphere, drawSphere_ok small4] at h
    simp only [Outcome.ok.injEq] at h
    subst h
    exact fun u hu => ball_complete M hg.le c white hu
  · next s e =>
    simp only [e] at hg ⊢
    rw [renderStaple_ok] at h
    simp only [Outcome.ok.injEq] at h
    subst h
    exact staple_complete hg.1 hg.2.1 hg.2.2 M c
  · next verts e =>
    simp only [e]
    unfold paintTriangleMesh at h
    obtain ⟨vs, hv, h⟩ := Outcome.bind_ok_iff.mp h
    simp only [Outcome.ok.injEq] at h
    subst h
    obtain ⟨ts, rfl, -, h2⟩ := meshVertices_ok hv
    intro f hf u v w hu hv' hw y hy
    obtain ⟨t, ht, a, b, d⟩ := h2 f hf
    rw [shown_cons, covers_map3]
    refine .inl ⟨faceted_eq c, t, ht, y, ?_, rfl⟩
    rw [hu] at a
    rw [hv'] at b
    rw [hw] at d
    simp only [Option.some.injEq] at a b d
    rwa [← a, ← b, ← d]

theorem paintBody_iff (M : GlMatrix) (g : PicGeometry) (c : Color) :
    (∃ ds, paintBody M g c = .ok ds) ↔ ∀ verts, g.geometry = .mesh verts → ∀ f ∈ g.faces, f.1 < verts.length ∧ f.2.1 < verts.length ∧ f.2.2 < verts.length := by
  unfold paintBody
  split
  · next e => rw [e]; simp
  · next e => rw [e, paintSphere, drawSphere_ok small4]; simp
  · next e => rw [e, renderStaple_ok]; simp
  · next verts e =>
    rw [e]
    simp only [Geometry3D.mesh.injEq, forall_eq']
    rw [← meshVertices_iff, paintTriangleMesh]
    constructor
    · rintro ⟨ds, h⟩
      obtain ⟨vs, hv, -⟩ := Outcome.bind_ok_iff.mp h
      exact ⟨vs, hv⟩
    · rintro ⟨vs, hv⟩
      rw [hv]; exact ⟨_, rfl⟩

theorem collect_ok {α : Type} {f : α → Outcome (List Draw)} {l : List α} {ds : List Draw} (h : collect f l = .ok ds) :
    (∀ d ∈ ds, ∃ a ∈ l, ∃ da, f a = .ok da ∧ d ∈ da) ∧ ∀ a ∈ l, ∃ da, f a = .ok da ∧ ∀ d ∈ da, d ∈ ds := by
  induction l generalizing ds with
  | nil =>
    simp only [collect, Outcome.ok.injEq] at h
    subst h; simp
  | cons a l ih =>
    simp only [collect] at h
    obtain ⟨da, ha, h⟩ := Outcome.bind_ok_iff.mp h
    obtain ⟨rest, hr, h⟩ := Outcome.bind_ok_iff.mp h
    simp only [Outcome.ok.injEq] at h
    subst h
    obtain ⟨h1, h2⟩ := ih hr
    constructor
    · intro d hd
      rcases List.mem_append.mp hd with hd | hd
      · exact ⟨a, by simp, da, ha, hd⟩
      · obtain ⟨b, hb, r⟩ := h1 d hd
        exact ⟨b, by simp [hb], r⟩
    · intro b hb
      rcases List.mem_cons.mp hb with rfl | hb
      · exact ⟨da, ha, fun d hd => by simp [hd]⟩
      · obtain ⟨db, e, hd⟩ := h2 b hb
        exact ⟨db, e, fun d h => by simp [hd d h]⟩

theorem collect_iff {α : Type} {f : α → Outcome (List Draw)} {l : List α} : (∃ ds, collect f l = .ok ds) ↔ ∀ a ∈ l, ∃ da, f a = .ok da := by
  constructor
  · rintro ⟨ds, h⟩ a ha
    obtain ⟨da, e, -⟩ := (collect_ok h).2 a ha
    exact ⟨da, e⟩
  · intro h
    induction l with
    | nil => exact ⟨[], rfl⟩
    | cons a l ih =>
      obtain ⟨da, ha⟩ := h a (by simp)
      obtain ⟨ds, hd⟩ := ih fun b hb => h b (by simp [hb])
      refine ⟨da ++ ds, ?_⟩
      simp only [collect, ha, hd, Outcome.bind]

theorem shown_collect {α : Type} {f : α → Outcome (List Draw)} {l : List α} {ds : List Draw} (h : collect f l = .ok ds) (paint : Paint) (p : Vec3) :
    Shown ds paint p ↔ ∃ a ∈ l, ∃ da, f a = .ok da ∧ Shown da paint p := by
  obtain ⟨h1, h2⟩ := collect_ok h
  constructor
  · rintro ⟨d, hd, r⟩
    obtain ⟨a, ha, da, e, hd'⟩ := h1 d hd
    exact ⟨a, ha, da, e, d, hd', r⟩
  · rintro ⟨a, ha, da, e, d, hd, r⟩
    obtain ⟨db, e', hd'⟩ := h2 a ha
    rw [e] at e'
    simp only [Outcome.ok.injEq] at e'
    subst e'
    exact ⟨d, hd' d hd, r⟩

theorem lined_collect {α : Type} {f : α → Outcome (List Draw)} {l : List α} {ds : List Draw} (h : collect f l = .ok ds) (paint : Paint) (p : Vec3) :
    Lined ds paint p ↔ ∃ a ∈ l, ∃ da, f a = .ok da ∧ Lined da paint p := by
  obtain ⟨h1, h2⟩ := collect_ok h
  constructor
  · rintro ⟨d, hd, r⟩
    obtain ⟨a, ha, da, e, hd'⟩ := h1 d hd
    exact ⟨a, ha, da, e, d, hd', r⟩
  · rintro ⟨a, ha, da, e, d, hd, r⟩
    obtain ⟨db, e', hd'⟩ := h2 a ha
    rw [e] at e'
    simp only [Outcome.ok.injEq] at e'
    subst e'
    exact ⟨d, hd' d hd, r⟩

end Picture3
end Scisim
