import Verif.Lemmas.RigidPortals3D
import Verif.Lemmas.RigidPortals2D
import Verif.Props.RigidContactList3D
import Verif.Props.Portal3D
/-!
# C61 in space with portals: which contacts there are
-/

namespace Scisim

open Matrix Step3

variable {axis : Vec3 → Vec3 → Vec3} {s : Step3} {portals : List Portal3}

theorem portalOverlaps3_ok (hne : s.bodies ≠ []) (hv : ∀ B ∈ s.portalBoxes3 axis portals, B.Valid) (hsp : Spread (s.portalBoxes3 axis portals) 1625) :
    ∃ pairs, getPotentialOverlaps (s.portalBoxes3 axis portals) = .ok pairs ∧ IsOverlapSet (s.portalBoxes3 axis portals) pairs :=
  C14_spread_partial _ (by simp [portalBoxes3, endBoxes, hne]) hv 1625 (by norm_num) (by norm_num) hsp

/-- What a pair of overlapping boxes stands for -/
theorem portal_pair3 (hv : ∀ B ∈ s.portalBoxes3 axis portals, B.Valid) {pairs : List (Nat × Nat)} (hset : IsOverlapSet (s.portalBoxes3 axis portals) pairs)
    {p : Nat × Nat} (hp : p ∈ pairs) : ∃ u v a b ca cb, imageOf s.bodies.length ((s.teleportedBodies axis portals).map (·.1)) p.1 = u ∧
      imageOf s.bodies.length ((s.teleportedBodies axis portals).map (·.1)) p.2 = v ∧ u ≠ v ∧ IsImage3 axis portals s u a ca ∧
      IsImage3 axis portals s v b cb ∧ ImageBoxesMeet3 s u v a b ca cb ∧ p.1 < p.2 ∧ (u.via = none → u.body = p.1) ∧ (v.via = none → v.body = p.2) := by
  obtain ⟨hlt, A, B, hA, hB, hov⟩ := (hset.2 p.1 p.2).mp hp
  obtain ⟨a, ca, hia, rfl⟩ := image_of_box3 hv hA
  obtain ⟨b, cb, hib, rfl⟩ := image_of_box3 hv hB
  have hla := (List.getElem?_eq_some_iff.mp hA).1
  have hlb := (List.getElem?_eq_some_iff.mp hB).1
  refine ⟨_, _, a, b, ca, cb, rfl, rfl, fun h => ?_, hia, hib, ?_, hlt, fun h => ?_, fun h => ?_⟩
  · have := imageOf_inj3 hla hlb h
    omega
  · exact (imageBoxesMeet3_iff (image_valid hv hia) (image_valid hv hib)).mpr hov
  · rw [imageOf_direct3 hla h]
  · rw [imageOf_direct3 hlb h]

/-- Two different images with boxes that meet are among the pairs, in one order or the other. -/
theorem pair_of_images3 (hv : ∀ B ∈ s.portalBoxes3 axis portals, B.Valid) {pairs : List (Nat × Nat)}
    (hset : IsOverlapSet (s.portalBoxes3 axis portals) pairs) {u v : Image} {a b : SceneBody3} {ca cb : Vec3} (huv : u ≠ v)
    (hu : IsImage3 axis portals s u a ca) (hv' : IsImage3 axis portals s v b cb) (hm : ImageBoxesMeet3 s u v a b ca cb) :
    ∃ k l, imageOf s.bodies.length ((s.teleportedBodies axis portals).map (·.1)) k = u ∧
      imageOf s.bodies.length ((s.teleportedBodies axis portals).map (·.1)) l = v ∧ ((k, l) ∈ pairs ∨ (l, k) ∈ pairs) := by
  obtain ⟨k, hk, hbk⟩ := box_of_image3 hv hu
  obtain ⟨l, hl, hbl⟩ := box_of_image3 hv hv'
  have hov := (imageBoxesMeet3_iff (image_valid hv hu) (image_valid hv hv')).mp hm
  have hkl : k ≠ l := by
    rintro rfl
    rw [hk] at hl
    exact huv hl
  refine ⟨k, l, hk, hl, ?_⟩
  rcases Nat.lt_or_gt_of_ne hkl with hlt | hlt
  · exact Or.inl ((hset.2 k l).mpr ⟨hlt, _, _, hbk, hbl, hov⟩)
  · refine Or.inr ((hset.2 l k).mpr ⟨hlt, _, _, hbl, hbk, ?_⟩)
    obtain ⟨x, h1, h2⟩ := hov
    exact ⟨x, h2, h1⟩

theorem collide3_ne {u v : Image} (hs : ∀ b ∈ s.bodies, b.Sound) (h : CollideThroughPortal3 axis portals s u v) : u ≠ v := by
  rintro rfl
  obtain ⟨a, b, ca, cb, hu, hv, ⟨⟨r, hr⟩, _⟩, h1, _, h2⟩ := h
  have hab := Option.some.inj (hu.1.symm.trans hv.1)
  subst hab
  have h1' : u.via ≠ none := h1.elim id id
  have hsa := hs _ (List.mem_of_getElem? hu.1)
  obtain ⟨g, m, f⟩ := a
  dsimp only at hr
  subst hr
  refine h2 ⟨h1', h1', s.q1.x u.body, ?_⟩
  have : s.q1.x u.body ∈ SceneBody3.pointsAt ⟨.sphere r, m, f⟩ s.q1 u.body := by
    simp [SceneBody3.pointsAt, PosedBody3D.points, ballSet3, sq_nonneg]
  exact ⟨this, this⟩

/-- two images of spheres with a point in common have boxes with a point in common -/
theorem images_boxesMeet3 (hs : ∀ b ∈ s.bodies, b.Sound) {u v : Image} {a b : SceneBody3} {ca cb : Vec3} (hu : IsImage3 axis portals s u a ca)
    (hv : IsImage3 axis portals s v b cb) (hc : BothSpheres a b) {z : Vec3} (h1 : z ∈ a.pointsSeen s.q1 u.body ca) (h2 : z ∈ b.pointsSeen s.q1 v.body cb) :
    ImageBoxesMeet3 s u v a b ca cb := by
  have hsa := hs a (List.mem_of_getElem? hu.1)
  have hsb := hs b (List.mem_of_getElem? hv.1)
  obtain ⟨⟨ra, hra⟩, rb, hrb⟩ := hc
  obtain ⟨ga, ma, fa⟩ := a
  obtain ⟨gb, mb, fb⟩ := b
  dsimp only at hra hrb
  subst hra hrb
  obtain ⟨A, hA, hA1, _⟩ := C44_sphere ra (show 0 < ra from hsa).le ca (s.q1.R u.body)
  obtain ⟨B, hB, hB1, _⟩ := C44_sphere rb (show 0 < rb from hsb).le cb (s.q1.R v.body)
  exact ⟨z, ⟨A, hA, hA1 z h1⟩, B, hB, hB1 z h2⟩

/-- The images whose boxes meet are supported. -/
def Step3.SupportedPortals (axis : Vec3 → Vec3 → Vec3) (s : Step3) (portals : List Portal3) : Prop :=
  ∀ u v a b ca cb, u ≠ v → IsImage3 axis portals s u a ca → IsImage3 axis portals s v b cb → (u.via ≠ none ∨ v.via ≠ none) →
    ¬(a.fixed = true ∧ b.fixed = true) → ImageBoxesMeet3 s u v a b ca cb → SupportedImages3 s u v a b

/-- The bodies whose boxes meet directly are supported. -/
def Step3.SupportedDirect (s : Step3) : Prop :=
  ∀ (i j : Nat) a b, i < j → s.bodies[i]? = some a → s.bodies[j]? = some b → ¬(a.fixed = true ∧ b.fixed = true) → BoxesMeet3 s.q1 i j a b →
    Supported3 s i j a b

theorem boxesMeet3_of_images {u v : Image} {a b : SceneBody3} {ca cb : Vec3} (hu : IsImage3 axis portals s u a ca) (hv : IsImage3 axis portals s v b cb)
    (h1 : u.via = none) (h2 : v.via = none) (hm : ImageBoxesMeet3 s u v a b ca cb) : BoxesMeet3 s.q1 u.body v.body a b := by
  have e1 := hu.2
  have e2 := hv.2
  rw [h1] at e1
  rw [h2] at e2
  dsimp only at e1 e2
  subst e1 e2
  obtain ⟨z, ⟨A, hA, h3⟩, B, hB, h4⟩ := hm
  exact ⟨A, B, z, hA, hB, fun t => ⟨(h3 t).1, (h3 t).2, (h4 t).1, (h4 t).2⟩⟩

/-- What happens to a pair of overlapping boxes -/
theorem classify3_spec (hs : ∀ b ∈ s.bodies, b.Sound) (hd : s.SupportedDirect) (hpo : s.SupportedPortals axis portals) {p : Nat × Nat} {u v : Image}
    {a b : SceneBody3} {ca cb : Vec3} (hp1 : imageOf s.bodies.length ((s.teleportedBodies axis portals).map (·.1)) p.1 = u)
    (hp2 : imageOf s.bodies.length ((s.teleportedBodies axis portals).map (·.1)) p.2 = v) (huv : u ≠ v) (hu : IsImage3 axis portals s u a ca)
    (hv : IsImage3 axis portals s v b cb) (hm : ImageBoxesMeet3 s u v a b ca cb) (hlt : p.1 < p.2) (hub : u.via = none → u.body = p.1)
    (hvb : v.via = none → v.body = p.2) :
    ∃ l t, classify3 axis s portals ((s.teleportedBodies axis portals).map (·.1)) p = .ok (l, t) ∧
      (∀ c ∈ l, c.pair = some p) ∧
      (l ≠ [] → u.via = none ∧ v.via = none ∧ ¬(a.fixed = true ∧ b.fixed = true) ∧ Touch3 s u.body v.body a b) ∧
      (u.via = none → v.via = none → ¬(a.fixed = true ∧ b.fixed = true) → Collide3 s u.body v.body a b → l ≠ []) ∧
      ((∃ r, a.geometry = .sphere r) → l.length ≤ 1) ∧
      ∀ c, t = some c ↔ (CollideThroughPortal3 axis portals s u v ∧ ¬(a.fixed = true ∧ b.fixed = true)) ∧ c = Step2.mkTeleportedCollision2 u v := by
  classical
  by_cases hvia : u.via = none ∧ v.via = none
  · have hc : classify3 axis s portals ((s.teleportedBodies axis portals).map (·.1)) p =
        (s.dispatchNarrowPhaseCollision p).bind fun cs => .ok (cs, none) := by
      unfold classify3
      simp only [hp1, hp2, hvia.1, hvia.2]
    have hbm := boxesMeet3_of_images hu hv hvia.1 hvia.2 hm
    have e1 := hub hvia.1
    have e2 := hvb hvia.2
    have ha := hu.1
    have hb := hv.1
    rw [e1] at ha
    rw [e2] at hb
    rw [e1, e2] at hbm
    obtain ⟨l, h1, h2, h3, h4, h5⟩ := dispatch_spec3 hlt ha hb (hs a (List.mem_of_getElem? ha)) (hs b (List.mem_of_getElem? hb))
      (fun hf => hd p.1 p.2 a b hlt ha hb hf hbm) hbm
    refine ⟨l, none, by rw [hc, show p = (p.1, p.2) from rfl, h1]; rfl, fun c hc => (h2 c hc).1, ?_, ?_, h5, ?_⟩
    · intro hl
      rw [e1, e2]
      exact ⟨hvia.1, hvia.2, h3 hl⟩
    · intro _ _ hf hcol
      rw [e1, e2] at hcol
      exact h4 hf hcol
    · intro c
      rw [collideThroughPortal3_iff hu hv]
      simp [hvia]
  · have hvia' : u.via ≠ none ∨ v.via ≠ none := by tauto
    have hc := classify3_portal hs hp1 hp2 hu hv hvia' fun hf => hpo u v a b ca cb huv hu hv hvia' hf hm
    refine ⟨[], _, hc, by simp, fun h => absurd rfl h, fun h1 h2 => absurd ⟨h1, h2⟩ hvia, by simp, ?_⟩
    intro c
    by_cases hcol : CollideThroughPortal3 axis portals s u v ∧ ¬(a.fixed = true ∧ b.fixed = true)
    · rw [if_pos hcol]
      simp only [hcol, true_and, Option.some.injEq, not_false_eq_true]
      exact eq_comm
    · rw [if_neg hcol]
      constructor
      · intro h
        cases h
      · rintro ⟨h, _⟩
        exact absurd h hcol

/-- The collisions through portals that are collected -/
theorem portal_collisions3 (hs : ∀ b ∈ s.bodies, b.Sound) (hd : s.SupportedDirect) (hpo : s.SupportedPortals axis portals)
    (hv : ∀ B ∈ s.portalBoxes3 axis portals, B.Valid) {pairs : List (Nat × Nat)} (hset : IsOverlapSet (s.portalBoxes3 axis portals) pairs)
    {out : List Contact3 × List TeleportedCollision}
    (hout : classifyAll axis s portals ((s.teleportedBodies axis portals).map (·.1)) pairs ([], []) = .ok out) :
    out.2.Pairwise TeleportedCollision.lt ∧
    (∀ c ∈ out.2, c.fst.body ≤ c.snd.body ∧ CollideThroughPortal3 axis portals s c.fst c.snd ∧
      ∃ a b, s.bodies[c.fst.body]? = some a ∧ s.bodies[c.snd.body]? = some b ∧ ¬(a.fixed = true ∧ b.fixed = true) ∧ BothSpheres a b) ∧
    ∀ u v a b, u.body ≤ v.body → CollideThroughPortal3 axis portals s u v → s.bodies[u.body]? = some a → s.bodies[v.body]? = some b →
      ¬(a.fixed = true ∧ b.fixed = true) → ∃ c ∈ out.2, c.fst.body = u.body ∧ c.snd.body = v.body := by
  obtain ⟨_, hts, _⟩ := Step3.classifyAll_ok hout
  generalize hcls : pairs.filterMap _ = cls at hts
  obtain ⟨hsorted, hfrom, hto⟩ := foldl_collisions cls [] List.Pairwise.nil
  rw [← hts] at hsorted hfrom hto
  refine ⟨hsorted, ?_, ?_⟩
  · intro c hc
    rcases hfrom c hc with h | h
    · rw [← hcls] at h
      obtain ⟨p, hp, h⟩ := List.mem_filterMap.mp h
      obtain ⟨u, v, a, b, ca, cb, hp1, hp2, huv, hia, hib, hm, hlt, hub, hvb⟩ := portal_pair3 hv hset hp
      obtain ⟨l, t, h1, _, _, _, _, h6⟩ := classify3_spec hs hd hpo hp1 hp2 huv hia hib hm hlt hub hvb
      rw [h1] at h
      obtain ⟨⟨hcol, hf⟩, rfl⟩ := (h6 c).mp h
      have hcirc : BothSpheres a b := ((collideThroughPortal3_iff hia hib).mp hcol).1
      unfold Step2.mkTeleportedCollision2
      split
      · exact ⟨by simp only; omega, hcol, a, b, hia.1, hib.1, hf, hcirc⟩
      · exact ⟨by simp only; omega, collideThroughPortal3_symm hcol, b, a, hib.1, hia.1, fun h => hf h.symm, hcirc.symm⟩
    · cases h
  · intro u v a b huv hcol ha hb hf
    obtain ⟨a', b', ca, cb, h1, h2, h0, h3, ⟨z, hz1, hz2⟩, h5⟩ := id hcol
    have h1' := h1.1
    have h2' := h2.1
    rw [ha] at h1'
    rw [hb] at h2'
    cases h1'
    cases h2'
    have hne := collide3_ne hs hcol
    obtain ⟨k, l, hk, hl, hkl⟩ := pair_of_images3 hv hset hne h1 h2 (images_boxesMeet3 hs h1 h2 h0 hz1 hz2)
    have hins : ∃ c ∈ cls, c = Step2.mkTeleportedCollision2 u v ∨ c = Step2.mkTeleportedCollision2 v u := by
      rw [← hcls]
      rcases hkl with hin | hin
      · obtain ⟨u', v', a', b', ca', cb', hp1, hp2, huv', hia, hib, hm, hlt, hub, hvb⟩ := portal_pair3 hv hset hin
        obtain rfl : u' = u := hp1.symm.trans hk
        obtain rfl : v' = v := hp2.symm.trans hl
        obtain ⟨rfl, rfl⟩ := isImage3_unique h1 hia
        obtain ⟨rfl, rfl⟩ := isImage3_unique h2 hib
        obtain ⟨l', t, e1, _, _, _, _, h6⟩ := classify3_spec hs hd hpo hp1 hp2 huv' hia hib hm hlt hub hvb
        refine ⟨Step2.mkTeleportedCollision2 u' v', List.mem_filterMap.mpr ⟨(k, l), hin, ?_⟩, Or.inl rfl⟩
        rw [e1]
        exact (h6 _).mpr ⟨⟨hcol, hf⟩, rfl⟩
      · obtain ⟨v', u', b', a', cb', ca', hp1, hp2, huv', hib, hia, hm, hlt, hub, hvb⟩ := portal_pair3 hv hset hin
        obtain rfl : u' = u := hp2.symm.trans hk
        obtain rfl : v' = v := hp1.symm.trans hl
        obtain ⟨rfl, rfl⟩ := isImage3_unique h1 hia
        obtain ⟨rfl, rfl⟩ := isImage3_unique h2 hib
        obtain ⟨l', t, e1, _, _, _, _, h6⟩ := classify3_spec hs hd hpo hp1 hp2 huv' hib hia hm hlt hub hvb
        refine ⟨Step2.mkTeleportedCollision2 v' u', List.mem_filterMap.mpr ⟨(l, k), hin, ?_⟩, Or.inr rfl⟩
        rw [e1]
        exact (h6 _).mpr ⟨⟨collideThroughPortal3_symm hcol, fun h => hf h.symm⟩, rfl⟩
    obtain ⟨c, hc, hceq⟩ := hins
    obtain ⟨e, he, hke⟩ := hto c (Or.inl hc)
    refine ⟨e, he, ?_⟩
    have hbodies : c.fst.body = u.body ∧ c.snd.body = v.body := by
      rcases hceq with rfl | rfl
      · unfold Step2.mkTeleportedCollision2
        by_cases h : u.body < v.body
        · rw [if_pos h]; exact ⟨rfl, rfl⟩
        · rw [if_neg h]; simp only; omega
      · unfold Step2.mkTeleportedCollision2
        rw [if_neg (by omega)]
        exact ⟨rfl, rfl⟩
    exact ⟨hke.1.trans hbodies.1, hke.2.trans hbodies.2⟩

theorem surfaces_pair (hsurf : s.SupportedSurfaces) : ∃ lp lc, s.computeBodyPlaneActiveSetAllPairs = .ok lp ∧
    s.computeBodyCylinderActiveSetAllPairs = .ok lc ∧ ∀ c ∈ lp ++ lc, c.pair = none := by
  obtain ⟨⟨lp, hlp⟩, lc, hlc⟩ := surfaces_ok hsurf
  refine ⟨lp, lc, hlp, hlc, ?_⟩
  intro c hc
  rcases List.mem_append.mp hc with hc | hc
  · unfold computeBodyPlaneActiveSetAllPairs at hlp
    obtain ⟨⟨p, k⟩, _, l', h', hcl⟩ := ((Step2.collect_ok hlp).1 c).mp hc
    obtain ⟨⟨b, i⟩, _, l'', h'', hcl⟩ := ((Step2.collect_ok h').1 c).mp hcl
    exact (plane_kind h'' hcl).1
  · unfold computeBodyCylinderActiveSetAllPairs at hlc
    obtain ⟨⟨p, k⟩, _, l', h', hcl⟩ := ((Step2.collect_ok hlc).1 c).mp hc
    obtain ⟨⟨b, i⟩, _, l'', h'', hcl⟩ := ((Step2.collect_ok h').1 c).mp hcl
    exact (cylinder_kind h'' hcl).1

/-- **C61** with portals (partial). For bodies with valid axis aligned boxes (of the bodies and of their images through the portals) that are spread over at most
1625 average sizes, if bodies whose boxes meet are supported together, images whose boxes meet and of which one is seen through a portal are spheres (or both
seen through portals and in contact directly), and no body is next to a surface that is not supported for it, the computation succeeds. Its result is a list of
direct contacts between bodies, a list of contacts through portals, and contacts with surfaces:
* the contacts through portals have strictly increasing pairs of bodies: there is at most one for each pair;
* a pair of bodies has a contact through a portal exactly if two images of the bodies, at least one of them through a portal, are spheres that have a point in
  common at the end of the step, where pairs of which both are seen through portals do not count if the spheres have a point in common directly, and the bodies
  are not both scripted;
* a pair of bodies that is in contact directly is not made of two scripted bodies, and the bodies touch at the end of the step; a pair that is not made of two
  scripted bodies and that collides at the end of the step is in contact. Two spheres share at most one such contact.
Missing: scenes that are spread out further. -/
theorem C61_portals_partial (hne : s.bodies ≠ []) (hs : ∀ b ∈ s.bodies, b.Sound) (hv : ∀ B ∈ s.portalBoxes3 axis portals, B.Valid)
    (hsp : Spread (s.portalBoxes3 axis portals) 1625) (hd : s.SupportedDirect) (hpo : s.SupportedPortals axis portals) (hsurf : s.SupportedSurfaces) :
    ∃ direct through surfaces, s.computeActiveSet3 axis portals = .ok (direct ++ through ++ surfaces) ∧
      (∀ c ∈ surfaces, c.pair = none) ∧ (∀ c ∈ direct ++ through, c.pair ≠ none) ∧
      (through.filterMap Contact3.pair).Pairwise (fun p q => p.1 < q.1 ∨ (p.1 = q.1 ∧ p.2 < q.2)) ∧
      (∀ i j, (i, j) ∈ through.filterMap Contact3.pair ↔ i ≤ j ∧ ∃ (u v : Image) (a b : SceneBody3), u.body = i ∧ v.body = j ∧
        s.bodies[i]? = some a ∧ s.bodies[j]? = some b ∧ CollideThroughPortal3 axis portals s u v ∧ ¬(a.fixed = true ∧ b.fixed = true)) ∧
      ∀ i j,
        ((i, j) ∈ direct.filterMap Contact3.pair → i < j ∧ ∃ a b, s.bodies[i]? = some a ∧ s.bodies[j]? = some b ∧
          ¬(a.fixed = true ∧ b.fixed = true) ∧ Touch3 s i j a b) ∧
        (∀ a b, i < j → s.bodies[i]? = some a → s.bodies[j]? = some b → ¬(a.fixed = true ∧ b.fixed = true) → Collide3 s i j a b →
          (i, j) ∈ direct.filterMap Contact3.pair) ∧
        ∀ a r, s.bodies[i]? = some a → a.geometry = .sphere r → (direct.filterMap Contact3.pair).count (i, j) ≤ 1 := by
  obtain ⟨pairs, hpairs, hset⟩ := portalOverlaps3_ok hne hv hsp
  have hspec : ∀ p ∈ pairs, ∃ r, classify3 axis s portals ((s.teleportedBodies axis portals).map (·.1)) p = .ok r := by
    intro p hp
    obtain ⟨u, v, a, b, ca, cb, hp1, hp2, huv, hia, hib, hm, hlt, hub, hvb⟩ := portal_pair3 hv hset hp
    obtain ⟨l, t, h, _⟩ := classify3_spec hs hd hpo hp1 hp2 huv hia hib hm hlt hub hvb
    exact ⟨_, h⟩
  obtain ⟨out, l, hout, hl, hcl⟩ := classifyAll3_total pairs ([], []) hspec
  rw [List.nil_append] at hl
  subst hl
  obtain ⟨hsorted, hmem, hcomplete⟩ := portal_collisions3 hs hd hpo hv hset hout
  classical
  have hgen : ∀ c ∈ out.2, ∃ d : Contact3, s.generateTeleportedCollision axis portals c = .ok [d] ∧ d.pair = some (c.fst.body, c.snd.body) := by
    intro c hc
    obtain ⟨hle, hcol, a, b, ha, hb, hf, hcirc⟩ := hmem c hc
    exact generateTeleported3 ha hb hf hcirc hle
  have hgen' : ∃ g : TeleportedCollision → Contact3, ∀ c ∈ out.2, s.generateTeleportedCollision axis portals c = .ok [g c] ∧
      (g c).pair = some (c.fst.body, c.snd.body) := by
    refine ⟨fun c => if h : c ∈ out.2 then (hgen c h).choose else .teleported 0 0 0 0 0, fun c hc => ?_⟩
    simp only [hc, dif_pos]
    exact (hgen c hc).choose_spec
  obtain ⟨g, hg⟩ := hgen'
  obtain ⟨lp, lc, hlp, hlc, hnone⟩ := surfaces_pair hsurf
  have hportal : (out.2.map g).filterMap Contact3.pair = out.2.map fun c => (c.fst.body, c.snd.body) := by
    rw [List.filterMap_map, ← List.filterMap_eq_map]
    exact List.filterMap_congr fun c hc => (hg c hc).2
  have hpairOf : ∀ p ∈ pairs, ∀ here, ((classify3 axis s portals ((s.teleportedBodies axis portals).map (·.1)) p).bind fun r => .ok r.1) = .ok here →
      ∀ c ∈ here, c.pair = some p := by
    intro p hpp here hh c hc
    obtain ⟨u, v, a, b, ca, cb, hp1, hp2, huv, hia, hib, hm, hlt, hub, hvb⟩ := portal_pair3 hv hset hpp
    obtain ⟨l', t, h, h2, _⟩ := classify3_spec hs hd hpo hp1 hp2 huv hia hib hm hlt hub hvb
    simp only [h, Outcome.bind] at hh
    cases hh
    exact h2 c hc
  have hcount := Step2.collect_count _ Contact3.pair pairs out.1 hset.1 hcl hpairOf
  refine ⟨out.1, out.2.map g, lp ++ lc, ?_, hnone, ?_, ?_, ?_, fun i j => ?_⟩
  · have hpairs' : getPotentialOverlaps (s.endBoxes ++ (s.teleportedBodies axis portals).map (·.2)) = .ok pairs := hpairs
    simp only [computeActiveSet3, computeActiveSetBodyBodySpatialGrid, hpairs', hout, Outcome.bind, hlp, hlc,
      Step2.collect_map (s.generateTeleportedCollision axis portals) g out.2 fun c hc => (hg c hc).1]
    simp [List.append_assoc]
  · intro c hc
    rcases List.mem_append.mp hc with hc | hc
    · obtain ⟨p, hp, here, hh, hch⟩ := ((Step2.collect_ok hcl).1 c).mp hc
      rw [hpairOf p hp here hh c hch]
      simp
    · obtain ⟨e, he, rfl⟩ := List.mem_map.mp hc
      rw [(hg e he).2]
      simp
  · rw [hportal]
    exact List.pairwise_map.mpr hsorted
  · intro i j
    rw [hportal, List.mem_map]
    constructor
    · rintro ⟨c, hc, he⟩
      cases he
      obtain ⟨h1, h2, a, b, ha, hb, hf, _⟩ := hmem c hc
      exact ⟨h1, c.fst, c.snd, a, b, rfl, rfl, ha, hb, h2, hf⟩
    · rintro ⟨hij, u, v, a, b, rfl, rfl, ha, hb, hcol, hf⟩
      obtain ⟨c, hc, h1, h2⟩ := hcomplete u v a b hij hcol ha hb hf
      exact ⟨c, hc, by rw [h1, h2]⟩
  · by_cases hij : (i, j) ∈ pairs
    · obtain ⟨u, v, a, b, ca, cb, hp1, hp2, huv, hia, hib, hm, hlt, hub, hvb⟩ := portal_pair3 hv hset hij
      obtain ⟨l', t, h, h2, h3, h4, h5, _⟩ := classify3_spec hs hd hpo hp1 hp2 huv hia hib hm hlt hub hvb
      have hc := (hcount (i, j)).2 l' hij (by simp only [h, Outcome.bind])
      have hdir : ∀ {a' b' : SceneBody3}, s.bodies[i]? = some a' → s.bodies[j]? = some b' → u.via = none ∧ v.via = none := by
        intro a' b' ha' hb'
        have hl1 := (List.getElem?_eq_some_iff.mp ha').1
        have hl2 := (List.getElem?_eq_some_iff.mp hb').1
        constructor
        · rw [← hp1]; simp [imageOf, hl1]
        · rw [← hp2]; simp [imageOf, hl2]
      refine ⟨?_, ?_, ?_⟩
      · rw [← List.count_pos_iff, hc, List.length_pos_iff]
        intro hl'
        obtain ⟨k1, k2, hf, htouch⟩ := h3 hl'
        have e1 : u.body = i := hub k1
        have e2 : v.body = j := hvb k2
        rw [e1, e2] at htouch
        have ha := hia.1
        have hb := hib.1
        rw [e1] at ha
        rw [e2] at hb
        exact ⟨hlt, a, b, ha, hb, hf, htouch⟩
      · intro a' b' _ ha' hb' hf hcol
        obtain ⟨k1, k2⟩ := hdir ha' hb'
        have e1 : u.body = i := hub k1
        have e2 : v.body = j := hvb k2
        have ha := hia.1
        have hb := hib.1
        rw [e1, ha'] at ha
        rw [e2, hb'] at hb
        cases ha
        cases hb
        rw [← List.count_pos_iff, hc, List.length_pos_iff]
        exact h4 k1 k2 hf (by rw [e1, e2]; exact hcol)
      · intro a' r ha' hr
        rw [hc]
        by_cases hl' : l' = []
        · rw [hl']; simp
        · obtain ⟨k1, k2, _⟩ := h3 hl'
          have e1 : u.body = i := hub k1
          have ha := hia.1
          rw [e1, ha'] at ha
          cases ha
          exact h5 ⟨r, hr⟩
    · have hc := (hcount (i, j)).1 hij
      refine ⟨?_, ?_, fun _ _ _ _ => by omega⟩
      · rw [← List.count_pos_iff, hc]
        intro h
        omega
      · intro a b hlt ha hb _ hcol
        exfalso
        apply hij
        rw [hset.2]
        exact ⟨hlt, _, _, by rw [portalBoxes3_get (List.getElem?_eq_some_iff.mp ha).1, ha]; rfl,
          by rw [portalBoxes3_get (List.getElem?_eq_some_iff.mp hb).1, hb]; rfl,
          overlap_boxesMeet (collide3_boxesMeet (hs a (List.mem_of_getElem? ha)) (hs b (List.mem_of_getElem? hb)) hcol)⟩

/-- C61 with portals, finding: if the boxes of two images meet, one of them seen through a portal and the other not, that are not both spheres and not both
scripted, the program exits, whether or not they touch; so it does for bodies of different kinds that are both seen through portals. -/
theorem C61_portals_exits (hne : s.bodies ≠ []) (hs : ∀ b ∈ s.bodies, b.Sound) (hv : ∀ B ∈ s.portalBoxes3 axis portals, B.Valid)
    (hsp : Spread (s.portalBoxes3 axis portals) 1625) {u v : Image} {a b : SceneBody3} {ca cb : Vec3} (huv : u ≠ v) (hu : IsImage3 axis portals s u a ca)
    (hv' : IsImage3 axis portals s v b cb) (hm : ImageBoxesMeet3 s u v a b ca cb) (hf : ¬(a.fixed = true ∧ b.fixed = true))
    (hun : UnsupportedImages3 u v a b) : s.computeActiveSet3 axis portals = .exit := by
  obtain ⟨pairs, hpairs, hset⟩ := portalOverlaps3_ok hne hv hsp
  have hex : classifyAll axis s portals ((s.teleportedBodies axis portals).map (·.1)) pairs ([], []) = .exit := by
    refine classifyAll3_exit pairs _ ?_ ?_
    · intro p hp
      obtain ⟨u, v, a, b, ca, cb, hp1, hp2, huv, hia, hib, hm, hlt, hub, hvb⟩ := portal_pair3 hv hset hp
      exact classify3_ok_or_exit hs hp1 hp2 hia hib hub hvb
    · obtain ⟨k, l, hk, hl, hkl⟩ := pair_of_images3 hv hset huv hu hv' hm
      rcases hkl with hin | hin
      · exact ⟨(k, l), hin, classify3_portal_exit hs hk hl hu hv' hf hun⟩
      · refine ⟨(l, k), hin, classify3_portal_exit hs hl hk hv' hu (fun h => hf h.symm) ?_⟩
        obtain ⟨h1, h2, h3⟩ := hun
        refine ⟨fun h => h1 h.symm, h2.symm, ?_⟩
        rcases h3 with h3 | h3 | h3
        · exact Or.inr (Or.inl h3)
        · exact Or.inl h3
        · exact Or.inr (Or.inr fun h => h3 (sameKind_symm h))
  have hpairs' : getPotentialOverlaps (s.endBoxes ++ (s.teleportedBodies axis portals).map (·.2)) = .ok pairs := hpairs
  simp only [computeActiveSet3, computeActiveSetBodyBodySpatialGrid, hpairs', hex, Outcome.bind]

/-! ## Examples -/

/-- A periodic boundary across the first coordinate, of length 10 -/
noncomputable def tube : Portal3 := ⟨.make ![0, 0, 0] ![1, 0, 0], .make ![10, 0, 0] ![-1, 0, 0], ![1, 1, -1]⟩

/-- A body of size 2 and a sphere, possibly scripted, at the ends of the tube -/
noncomputable def tubePair (g : Geometry3D) (f : Bool) : Step3 where
  bodies := [⟨g, noMesh, false⟩, ⟨.sphere 1, noMesh, f⟩]
  planes := []
  cylinders := []
  q0 := ⟨fun i => if i = 0 then ![1 / 2, 0, 0] else ![9, 0, 0], fun _ => 1⟩
  q1 := ⟨fun i => if i = 0 then ![1 / 2, 0, 0] else ![9, 0, 0], fun _ => 1⟩

theorem tube_heights (z : Vec3) : tube.planeA.height z = z 0 ∧ tube.planeB.height z = 10 - z 0 := by
  have hu : dot3 ![1, 0, 0] ![1, 0, 0] = 1 := by simp [dot3]
  have hu' : dot3 ![-1, 0, 0] ![-1, 0, 0] = 1 := by simp [dot3]
  constructor
  · simp [tube, Plane3.make, normalized3_unit hu, Plane3.height, inner3]
  · simp [tube, Plane3.make, normalized3_unit hu', Plane3.height, inner3]
    ring

theorem tube_through (axis : Vec3 → Vec3 → Vec3) (x : ℝ) : tube.teleportPointThroughPlaneA axis ![x, 0, 0] = ![x + 10, 0, 0] ∧
    tube.teleportPointThroughPlaneB axis ![x, 0, 0] = ![x - 10, 0, 0] := by
  obtain ⟨h1, h2⟩ := C58_periodic_x (axis := axis) 0 0 0 10 0 0 ![x, 0, 0]
  constructor <;> funext i
  · have := h1 i
    fin_cases i <;> simpa [tube] using this
  · have := h2 i
    fin_cases i <;> simpa [tube] using this

/-- The body has the same box as a sphere of radius 1. -/
def UnitBox (g : Geometry3D) : Prop := ∀ x : ℝ, g.aabb ![x, 0, 0] 1 = some (![x - 1, -1, -1], ![x + 1, 1, 1])

theorem unitBox_sphere : UnitBox (.sphere 1) := by
  intro x
  simp only [Geometry3D.aabb, Option.some.injEq, Prod.mk.injEq]
  constructor <;> funext i <;> fin_cases i <;> simp

theorem unitBox_box : UnitBox (.box ![1, 1, 1]) := by
  intro x
  simp only [Geometry3D.aabb, Option.some.injEq, Prod.mk.injEq]
  constructor <;> funext i <;> fin_cases i <;> simp [Matrix.mulVec, dotProduct, Fin.sum_univ_three, Matrix.one_apply]

theorem tubePair_boxes (axis : Vec3 → Vec3 → Vec3) {g : Geometry3D} (hg : UnitBox g) (f : Bool) : (tubePair g f).portalBoxes3 axis [tube] =
    [⟨![-1/2, -1, -1], ![3/2, 1, 1]⟩, ⟨![8, -1, -1], ![10, 1, 1]⟩, ⟨![19/2, -1, -1], ![23/2, 1, 1]⟩, ⟨![-2, -1, -1], ![0, 1, 1]⟩] := by
  have b0 : toBox3 (g.aabb ((tubePair g f).q1.x 0) ((tubePair g f).q1.R 0)) = ⟨![-1/2, -1, -1], ![3/2, 1, 1]⟩ := by
    simp only [tubePair, if_true, hg (1 / 2), toBox3]
    norm_num
  have b1 : toBox3 ((Geometry3D.sphere 1).aabb ((tubePair g f).q1.x 1) ((tubePair g f).q1.R 1)) = ⟨![8, -1, -1], ![10, 1, 1]⟩ := by
    simp only [tubePair, one_ne_zero, if_false, unitBox_sphere 9, toBox3]
    norm_num
  have t0 : tube.aabbTouchesPortal ![-1/2, -1, -1] ![3/2, 1, 1] = some false := by
    unfold Portal3.aabbTouchesPortal Portal3.aabbInHalfPlane
    simp only [height_eq, tube_heights]
    rw [if_pos]
    exact Or.inl (by simp; norm_num)
  have t1 : tube.aabbTouchesPortal ![8, -1, -1] ![10, 1, 1] = some true := by
    unfold Portal3.aabbTouchesPortal Portal3.aabbInHalfPlane
    simp only [height_eq, tube_heights]
    rw [if_neg, if_pos]
    · exact Or.inr (Or.inr (Or.inr (Or.inr (Or.inl (by simp)))))
    · simp
  have e0 : toBox3 (g.aabb (tube.teleportPoint axis ((tubePair g f).q1.x 0) false) ((tubePair g f).q1.R 0)) = ⟨![19/2, -1, -1], ![23/2, 1, 1]⟩ := by
    have : tube.teleportPoint axis ((tubePair g f).q1.x 0) false = ![21/2, 0, 0] := by
      simp only [Portal3.teleportPoint, if_true, tubePair, (tube_through axis (1 / 2)).1]
      norm_num
    rw [this]
    simp only [tubePair, hg (21 / 2), toBox3]
    norm_num
  have e1 : toBox3 ((Geometry3D.sphere 1).aabb (tube.teleportPoint axis ((tubePair g f).q1.x 1) true) ((tubePair g f).q1.R 1)) = ⟨![-2, -1, -1], ![0, 1, 1]⟩ := by
    have : tube.teleportPoint axis ((tubePair g f).q1.x 1) true = ![-1, 0, 0] := by
      simp only [Portal3.teleportPoint, Bool.true_eq_false, if_false, tubePair, one_ne_zero, (tube_through axis 9).2]
      norm_num
    rw [this]
    simp only [tubePair, unitBox_sphere (-1), toBox3]
    norm_num
  have hb : (tubePair g f).bodies = [⟨g, noMesh, false⟩, ⟨.sphere 1, noMesh, f⟩] := rfl
  unfold portalBoxes3 endBoxes teleportedBodies
  simp only [hb, List.zipIdx_cons, List.zipIdx_nil, List.map_cons, List.map_nil, List.flatMap_cons, List.flatMap_nil, List.filterMap_cons, List.filterMap_nil,
    zero_add, b0, b1, t0, t1, Option.map_some, e0, e1, List.append_nil, List.cons_append, List.nil_append]

theorem tubePair_spread (axis : Vec3 → Vec3 → Vec3) {g : Geometry3D} (hg : UnitBox g) (f : Bool) : Spread ((tubePair g f).portalBoxes3 axis [tube]) 1625 := by
  rw [tubePair_boxes axis hg]
  have hw : cellWidth ([⟨![-1/2, -1, -1], ![3/2, 1, 1]⟩, ⟨![8, -1, -1], ![10, 1, 1]⟩, ⟨![19/2, -1, -1], ![23/2, 1, 1]⟩, ⟨![-2, -1, -1], ![0, 1, 1]⟩] :
      List (Box 3 ℝ)) = 2 := by
    simp [cellWidth, maxCoeff, Fin.tail]
    norm_num
  intro a ha b hb i
  rw [hw]
  simp only [List.mem_cons, List.not_mem_nil, or_false] at ha hb
  rcases ha with rfl | rfl | rfl | rfl <;> rcases hb with rfl | rfl | rfl | rfl <;> fin_cases i <;> simp <;> norm_num

theorem tubePair_valid (axis : Vec3 → Vec3 → Vec3) {g : Geometry3D} (hg : UnitBox g) (f : Bool) : ∀ B ∈ (tubePair g f).portalBoxes3 axis [tube], B.Valid := by
  rw [tubePair_boxes axis hg]
  intro B hB i
  simp only [List.mem_cons, List.not_mem_nil, or_false] at hB
  rcases hB with rfl | rfl | rfl | rfl <;> fin_cases i <;> simp <;> norm_num

/-- the first body is seen through the first plane, at the other end of the tube -/
theorem tubePair_image (axis : Vec3 → Vec3 → Vec3) {g : Geometry3D} (hg : UnitBox g) (f : Bool) :
    IsImage3 axis [tube] (tubePair g f) ⟨0, some (0, false)⟩ ⟨g, noMesh, false⟩ ![21/2, 0, 0] := by
  refine ⟨rfl, tube, rfl, Or.inl ⟨rfl, ⟨![0, 0, 0], ⟨_, hg (1 / 2), fun t => ?_⟩, ?_⟩, ?_⟩⟩
  · fin_cases t <;> simp <;> norm_num
  · rw [(tube_heights _).1]
    simp
  · have := (tube_through axis (1 / 2)).1
    simp only [tubePair, if_true, this]
    norm_num

/-- Non-vacuity of `C61_portals_partial`: two spheres touch through a portal, one of them may be scripted, and there is one contact. -/
theorem C61_tube (axis : Vec3 → Vec3 → Vec3) (f : Bool) : ∃ direct through surfaces,
    (tubePair (.sphere 1) f).computeActiveSet3 axis [tube] = .ok (direct ++ through ++ surfaces) ∧ (0, 1) ∈ through.filterMap Contact3.pair ∧
    direct.filterMap Contact3.pair = [] := by
  have hcases : ∀ b ∈ (tubePair (.sphere 1) f).bodies, b.geometry = .sphere 1 := by simp [tubePair]
  obtain ⟨direct, through, surfaces, h1, h2, h2', h3, h4, h5⟩ := C61_portals_partial (axis := axis) (portals := [tube]) (s := tubePair (.sphere 1) f)
    (by simp [tubePair]) (by simp [tubePair, SceneBody3.Sound]) (tubePair_valid axis unitBox_sphere f) (tubePair_spread axis unitBox_sphere f)
    (by
      intro i j a b _ ha hb _ _
      have ha' := hcases a (List.mem_of_getElem? ha)
      have hb' := hcases b (List.mem_of_getElem? hb)
      unfold Supported3
      rw [ha', hb']
      trivial)
    (by
      intro u v a b ca cb _ hia hib _ _ _
      exact Or.inl ⟨⟨1, hcases a (List.mem_of_getElem? hia.1)⟩, 1, hcases b (List.mem_of_getElem? hib.1)⟩)
    (by
      intro b hb _
      rw [hcases b hb]
      simp)
  refine ⟨direct, through, surfaces, h1, ?_, ?_⟩
  · rw [h4]
    refine ⟨by norm_num, ⟨0, some (0, false)⟩, ⟨1, none⟩, ⟨.sphere 1, noMesh, false⟩, ⟨.sphere 1, noMesh, f⟩, rfl, rfl, rfl, rfl,
      ⟨⟨.sphere 1, noMesh, false⟩, ⟨.sphere 1, noMesh, f⟩, ![21/2, 0, 0], ![9, 0, 0], tubePair_image axis unitBox_sphere f, ⟨rfl, rfl⟩,
        ⟨⟨1, rfl⟩, 1, rfl⟩, Or.inl (by simp), ⟨![10, 0, 0], ?_, ?_⟩, by simp⟩, by simp⟩
    · simp [SceneBody3.pointsSeen, PosedBody3D.points, ballSet3]
      norm_num
    · simp [SceneBody3.pointsSeen, PosedBody3D.points, ballSet3]
      norm_num
  · rw [List.eq_nil_iff_forall_not_mem]
    rintro ⟨i, j⟩ h
    obtain ⟨hij, a, b, ha, hb, _, hz⟩ := (h5 i j).1 h
    have hj := (List.getElem?_eq_some_iff.mp hb).1
    simp only [tubePair, List.length_cons, List.length_nil] at hj
    have h01 : i = 0 ∧ j = 1 := by omega
    obtain ⟨rfl, rfl⟩ := h01
    cases ha
    cases hb
    obtain ⟨z, hz1, hz2⟩ := hz
    simp only [SceneBody3.pointsAt, PosedBody3D.points, ballSet3, tubePair, Set.mem_ofPred_eq, if_true, one_ne_zero, if_false, Matrix.cons_val_zero,
      Matrix.cons_val_one, Matrix.cons_val] at hz1 hz2
    nlinarith [sq_nonneg (z 1), sq_nonneg (z 2), sq_nonneg (z 0 - 1/2 + (z 0 - 9))]

/-- C61, finding: a box and a sphere at the ends of the tube make the program exit. -/
theorem C61_portal_box (axis : Vec3 → Vec3 → Vec3) (f : Bool) : (tubePair (.box ![1, 1, 1]) f).computeActiveSet3 axis [tube] = .exit := by
  refine C61_portals_exits (axis := axis) (portals := [tube]) (u := ⟨0, some (0, false)⟩) (v := ⟨1, none⟩) (cb := ![9, 0, 0]) (by simp [tubePair])
    (by
      intro b hb
      simp only [tubePair, List.mem_cons, List.not_mem_nil, or_false] at hb
      rcases hb with rfl | rfl
      · intro i
        fin_cases i <;> simp
      · simp [SceneBody3.Sound])
    (tubePair_valid axis unitBox_box f) (tubePair_spread axis unitBox_box f) (by simp) (tubePair_image axis unitBox_box f) ⟨rfl, rfl⟩ ?_ (by simp)
    ⟨?_, Or.inl (by simp), Or.inr (Or.inl rfl)⟩
  · refine ⟨![10, 0, 0], ⟨_, unitBox_box (21 / 2), fun t => ?_⟩, _, unitBox_sphere 9, fun t => ?_⟩
    · fin_cases t <;> simp <;> norm_num
    · fin_cases t <;> simp <;> norm_num
  · rintro ⟨⟨r, h⟩, _⟩
    cases h

end Scisim
