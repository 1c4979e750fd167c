import Verif.Lemmas.RigidPortals2D
import Verif.Props.RigidContactList2D
import Verif.Props.BallContacts
/-!
# C57 in the plane with portals: which contacts there are
-/

namespace Scisim

open Step2

variable {junk : ℝ → ℤ} {s : Step2} {portals : List (PlanarPortal ℝ)}

theorem portalOverlaps_ok (hne : s.bodies ≠ []) (hs : ∀ b ∈ s.bodies, b.Solid) (hsp : Spread (s.portalBoxes junk portals) 65536) :
    ∃ pairs, getPotentialOverlaps (s.portalBoxes junk portals) = .ok pairs ∧ IsOverlapSet (s.portalBoxes junk portals) pairs := by
  refine C14_spread_partial _ (by simp [portalBoxes, hne]) ?_ 65536 (by norm_num) (by norm_num) hsp
  intro box hbox
  obtain ⟨k, hk⟩ := List.getElem?_of_mem hbox
  obtain ⟨b, c, hi, rfl⟩ := image_of_box2 hs hk
  exact toBox_aabb_valid (hs b (List.mem_of_getElem? hi.1)) _ _

theorem imageOf_direct {k : Nat} (hk : k < (s.portalBoxes junk portals).length)
    (h : (imageOf s.bodies.length ((s.teleportedBodies junk portals).map (·.1)) k).via = none) :
    imageOf s.bodies.length ((s.teleportedBodies junk portals).map (·.1)) k = ⟨k, none⟩ := by
  by_cases hl : k < s.bodies.length
  · simp [imageOf, hl]
  · have hlen : (s.portalBoxes junk portals).length = s.bodies.length + (s.teleportedBodies junk portals).length := by
      simp [portalBoxes]
    have h3 : k - s.bodies.length < (s.teleportedBodies junk portals).length := by omega
    simp [imageOf, hl, List.getElem?_map, List.getElem?_eq_getElem h3] at h

/-- What a pair of overlapping boxes stands for -/
theorem portal_pair (hs : ∀ b ∈ s.bodies, b.Solid) {pairs : List (Nat × Nat)} (hset : IsOverlapSet (s.portalBoxes junk portals) pairs) {p : Nat × Nat}
    (hp : p ∈ pairs) : ∃ u v a b ca cb, imageOf s.bodies.length ((s.teleportedBodies junk portals).map (·.1)) p.1 = u ∧
      imageOf s.bodies.length ((s.teleportedBodies junk portals).map (·.1)) p.2 = v ∧ u ≠ v ∧ IsImage2 junk portals s u a ca ∧
      IsImage2 junk portals s v b cb ∧ BoundsMeet2 (a.pointsSeen s.q1 u.body ca) (b.pointsSeen s.q1 v.body cb) ∧ p.1 < p.2 ∧
      (u.via = none → u.body = p.1) ∧ (v.via = none → v.body = p.2) := by
  obtain ⟨hlt, A, B, hA, hB, hov⟩ := (hset.2 p.1 p.2).mp hp
  obtain ⟨a, ca, hia, rfl⟩ := image_of_box2 hs hA
  obtain ⟨b, cb, hib, rfl⟩ := image_of_box2 hs hB
  have hla := (List.getElem?_eq_some_iff.mp hA).1
  have hlb := (List.getElem?_eq_some_iff.mp hB).1
  refine ⟨_, _, a, b, ca, cb, rfl, rfl, fun h => ?_, hia, hib, ?_, hlt, fun h => ?_, fun h => ?_⟩
  · have := imageOf_inj hla hlb h
    omega
  · exact (boundsMeet_iff (hs a (List.mem_of_getElem? hia.1)) (hs b (List.mem_of_getElem? hib.1)) _ _ _ _ _).mpr hov
  · rw [imageOf_direct hla h]
  · rw [imageOf_direct hlb h]

/-- Two different images with boxes that meet are among the pairs, in one order or the other. -/
theorem pair_of_images (hs : ∀ b ∈ s.bodies, b.Solid) {pairs : List (Nat × Nat)} (hset : IsOverlapSet (s.portalBoxes junk portals) pairs) {u v : Image}
    {a b : Body2} {ca cb : V2 ℝ} (huv : u ≠ v) (hu : IsImage2 junk portals s u a ca) (hv : IsImage2 junk portals s v b cb)
    (hm : BoundsMeet2 (a.pointsSeen s.q1 u.body ca) (b.pointsSeen s.q1 v.body cb)) :
    ∃ k l, imageOf s.bodies.length ((s.teleportedBodies junk portals).map (·.1)) k = u ∧
      imageOf s.bodies.length ((s.teleportedBodies junk portals).map (·.1)) l = v ∧ ((k, l) ∈ pairs ∨ (l, k) ∈ pairs) := by
  obtain ⟨k, hk, hbk⟩ := box_of_image2 hs hu
  obtain ⟨l, hl, hbl⟩ := box_of_image2 hs hv
  have hov := (boundsMeet_iff (hs a (List.mem_of_getElem? hu.1)) (hs b (List.mem_of_getElem? hv.1)) _ _ _ _ _).mp hm
  have hkl : k ≠ l := by
    rintro rfl
    rw [hk] at hl
    exact huv hl
  refine ⟨k, l, hk, hl, ?_⟩
  rcases Nat.lt_or_gt_of_ne hkl with hlt | hlt
  · exact Or.inl ((hset.2 k l).mpr ⟨hlt, _, _, hbk, hbl, hov⟩)
  · refine Or.inr ((hset.2 l k).mpr ⟨hlt, _, _, hbl, hbk, ?_⟩)
    obtain ⟨x, h1, h2⟩ := hov
    exact ⟨x, h2, h1⟩

theorem collide_ne {u v : Image} (hs : ∀ b ∈ s.bodies, b.Solid) (h : CollideThroughPortal2 junk portals s u v) : u ≠ v := by
  rintro rfl
  obtain ⟨a, b, ca, cb, hu, hv, h1, _, h2⟩ := h
  have hab := Option.some.inj (hu.1.symm.trans hv.1)
  subst hab
  have h1' : u.via ≠ none := h1.elim id id
  obtain ⟨g, f⟩ := a
  have hsa := hs _ (List.mem_of_getElem? hu.1)
  refine h2 ⟨h1', h1', seg2 s.q1 u.body, ?_⟩
  have : seg2 s.q1 u.body ∈ Body2.pointsAt ⟨g, f⟩ s.q1 u.body := by
    cases g with
    | circle r => simp [Body2.pointsAt, PosedBody2D.points, discSet, seg2, sq_nonneg]
    | box r =>
      have hr : 0 < r.x ∧ 0 < r.y := hsa
      exact ⟨0, 0, by simpa using hr.1.le, by simpa using hr.2.le, by ext <;> simp [seg2]⟩
  exact ⟨this, this⟩

theorem bothCircles_symm {a b : Body2} (h : BothCircles a b) : BothCircles b a := ⟨h.2, h.1⟩

theorem unsupportedImages_symm {u v : Image} {a b : Body2} (h : UnsupportedImages u v a b) : UnsupportedImages v u b a := by
  unfold UnsupportedImages at h ⊢
  by_cases hv : u.via = none ∧ v.via = none
  · rw [if_pos hv] at h
    rw [if_pos hv.symm]
    exact unsupported2_symm h
  · rw [if_neg hv] at h
    rw [if_neg fun h => hv h.symm]
    exact ⟨fun hc => h.1 (bothCircles_symm hc), h.2.imp (fun h1 h2 => h1 h2.symm) And.symm⟩

/-- What happens to a pair of overlapping boxes -/
theorem classify2_spec (hs : ∀ b ∈ s.bodies, b.Solid) {p : Nat × Nat} {u v : Image} {a b : Body2} {ca cb : V2 ℝ}
    (hp1 : imageOf s.bodies.length ((s.teleportedBodies junk portals).map (·.1)) p.1 = u)
    (hp2 : imageOf s.bodies.length ((s.teleportedBodies junk portals).map (·.1)) p.2 = v) (hu : IsImage2 junk portals s u a ca)
    (hv : IsImage2 junk portals s v b cb) (hlt : p.1 < p.2) (hub : u.via = none → u.body = p.1) (hvb : v.via = none → v.body = p.2) :
    (UnsupportedImages u v a b → classify2 junk s portals ((s.teleportedBodies junk portals).map (·.1)) p = .exit) ∧
    (¬UnsupportedImages u v a b → ∃ l t, classify2 junk s portals ((s.teleportedBodies junk portals).map (·.1)) p = .ok (l, t) ∧
      (∀ c ∈ l, c.pair = some p ∧ c.portalPair = none) ∧
      (l ≠ [] ↔ u.via = none ∧ v.via = none ∧ ¬(a.fixed = true ∧ b.fixed = true) ∧ Collide2 s u.body v.body a b) ∧
      l.length ≤ 2 ∧ (l.length ≤ 1 ∨ BothBoxes a b) ∧
      ∀ c, t = some c ↔ (CollideThroughPortal2 junk portals s u v ∧ ¬(a.fixed = true ∧ b.fixed = true)) ∧ c = mkTeleportedCollision2 u v) := by
  classical
  by_cases hvia : u.via = none ∧ v.via = none
  · have hc : classify2 junk s portals ((s.teleportedBodies junk portals).map (·.1)) p = (s.dispatchNarrowPhaseCollision p).bind fun cs => .ok (cs, none) := by
      unfold classify2
      simp only [hp1, hp2, hvia.1, hvia.2]
    have e1 := hub hvia.1
    have e2 := hvb hvia.2
    have ha := hu.1
    have hb := hv.1
    rw [e1] at ha
    rw [e2] at hb
    unfold UnsupportedImages
    rw [if_pos hvia, hc]
    constructor
    · intro h
      rw [show p = (p.1, p.2) from rfl, dispatch_exit ha hb h]
      rfl
    · intro h
      obtain ⟨l, h1, h2, h3, h4, h5⟩ := dispatch_spec hlt ha hb (hs a (List.mem_of_getElem? ha)) (hs b (List.mem_of_getElem? hb)) h
      refine ⟨l, none, by rw [show p = (p.1, p.2) from rfl, h1]; rfl, fun c hc => ⟨(h2 c hc).1, dispatch_notPortal h1 hc⟩, ?_, h4, h5, ?_⟩
      · rw [h3, e1, e2]
        simp [hvia]
      · intro c
        rw [collideThroughPortal2_iff hu hv]
        simp [hvia]
  · have hvia' : u.via ≠ none ∨ v.via ≠ none := by tauto
    have hc := classify2_portal hs hp1 hp2 hu hv hvia'
    unfold UnsupportedImages
    rw [if_neg hvia]
    constructor
    · intro h
      rw [hc, if_pos h]
    · intro h
      rw [if_neg h] at hc
      refine ⟨[], _, hc, by simp, ?_, by simp, by simp, ?_⟩
      · constructor
        · intro h; exact absurd rfl h
        · rintro ⟨h1, h2, _⟩
          exact absurd ⟨h1, h2⟩ hvia
      · intro c
        by_cases hcol : CollideThroughPortal2 junk portals s u v ∧ ¬(a.fixed = true ∧ b.fixed = true)
        · rw [if_pos hcol]
          simp only [hcol, true_and, Option.some.injEq, not_false_eq_true]
          exact eq_comm
        · rw [if_neg hcol]
          constructor
          · intro h
            cases h
          · rintro ⟨h, _⟩
            exact absurd h hcol

/-- The collisions through portals that are collected -/
theorem portal_collisions (hs : ∀ b ∈ s.bodies, b.Solid) {pairs : List (Nat × Nat)} (hset : IsOverlapSet (s.portalBoxes junk portals) pairs)
    (hu : ¬MeetUnsupported2 junk portals s) {out : List Contact2 × List TeleportedCollision}
    (hout : classifyAll junk s portals ((s.teleportedBodies junk portals).map (·.1)) pairs ([], []) = .ok out) :
    out.2.Pairwise TeleportedCollision.lt ∧
    (∀ c ∈ out.2, c.fst.body ≤ c.snd.body ∧ CollideThroughPortal2 junk portals s c.fst c.snd ∧
      ∃ a b, s.bodies[c.fst.body]? = some a ∧ s.bodies[c.snd.body]? = some b ∧ ¬(a.fixed = true ∧ b.fixed = true) ∧ BothCircles a b) ∧
    ∀ u v a b, u.body ≤ v.body → CollideThroughPortal2 junk portals s u v → s.bodies[u.body]? = some a → s.bodies[v.body]? = some b →
      ¬(a.fixed = true ∧ b.fixed = true) → ∃ c ∈ out.2, c.fst.body = u.body ∧ c.snd.body = v.body := by
  obtain ⟨_, hts, _⟩ := classifyAll_ok hout
  generalize hcls : pairs.filterMap _ = cls at hts
  obtain ⟨hsorted, hfrom, hto⟩ := foldl_collisions cls [] List.Pairwise.nil
  rw [← hts] at hsorted hfrom hto
  refine ⟨hsorted, ?_, ?_⟩
  · intro c hc
    rcases hfrom c hc with h | h
    · rw [← hcls] at h
      obtain ⟨p, hp, h⟩ := List.mem_filterMap.mp h
      obtain ⟨u, v, a, b, ca, cb, hp1, hp2, huv, hia, hib, hm, hlt, hub, hvb⟩ := portal_pair hs hset hp
      have hns : ¬UnsupportedImages u v a b := fun h => hu ⟨u, v, a, b, ca, cb, huv, hia, hib, hm, h⟩
      obtain ⟨l, t, h1, _, _, _, _, h6⟩ := (classify2_spec hs hp1 hp2 hia hib hlt hub hvb).2 hns
      rw [h1] at h
      obtain ⟨⟨hcol, hf⟩, rfl⟩ := (h6 c).mp h
      have hcirc : BothCircles a b := by
        have hvia := ((collideThroughPortal2_iff hia hib).mp hcol).1
        unfold UnsupportedImages at hns
        rw [if_neg (by tauto)] at hns
        by_contra hcon
        exact hns ⟨hcon, Or.inl hf⟩
      unfold mkTeleportedCollision2
      split
      · exact ⟨by simp only; omega, hcol, a, b, hia.1, hib.1, hf, hcirc⟩
      · exact ⟨by simp only; omega, collideThroughPortal2_symm hcol, b, a, hib.1, hia.1, fun h => hf h.symm, bothCircles_symm hcirc⟩
    · cases h
  · intro u v a b huv hcol ha hb hf
    obtain ⟨a', b', ca, cb, h1, h2, h3, ⟨z, hz1, hz2⟩, h5⟩ := id hcol
    have h1' := h1.1
    have h2' := h2.1
    rw [ha] at h1'
    rw [hb] at h2'
    cases h1'
    cases h2'
    have hne := collide_ne hs hcol
    obtain ⟨k, l, hk, hl, hkl⟩ := pair_of_images hs hset hne h1 h2 (boundsMeet_of_common hz1 hz2)
    have hins : ∃ c ∈ cls, c = mkTeleportedCollision2 u v ∨ c = mkTeleportedCollision2 v u := by
      rw [← hcls]
      rcases hkl with hin | hin
      · obtain ⟨u', v', a', b', ca', cb', hp1, hp2, huv', hia, hib, hm, hlt, hub, hvb⟩ := portal_pair hs hset hin
        obtain rfl : u' = u := hp1.symm.trans hk
        obtain rfl : v' = v := hp2.symm.trans hl
        obtain ⟨rfl, rfl⟩ := isImage2_unique h1 hia
        obtain ⟨rfl, rfl⟩ := isImage2_unique h2 hib
        obtain ⟨l', t, e1, _, _, _, _, h6⟩ := (classify2_spec hs hp1 hp2 hia hib hlt hub hvb).2 fun h => hu ⟨_, _, _, _, _, _, huv', hia, hib, hm, h⟩
        refine ⟨mkTeleportedCollision2 u' v', List.mem_filterMap.mpr ⟨(k, l), hin, ?_⟩, Or.inl rfl⟩
        rw [e1]
        exact (h6 _).mpr ⟨⟨hcol, hf⟩, rfl⟩
      · obtain ⟨v', u', b', a', cb', ca', hp1, hp2, huv', hib, hia, hm, hlt, hub, hvb⟩ := portal_pair hs hset hin
        obtain rfl : u' = u := hp2.symm.trans hk
        obtain rfl : v' = v := hp1.symm.trans hl
        obtain ⟨rfl, rfl⟩ := isImage2_unique h1 hia
        obtain ⟨rfl, rfl⟩ := isImage2_unique h2 hib
        obtain ⟨l', t, e1, _, _, _, _, h6⟩ := (classify2_spec hs hp1 hp2 hib hia hlt hub hvb).2 fun h => hu ⟨_, _, _, _, _, _, huv', hib, hia, hm, h⟩
        refine ⟨mkTeleportedCollision2 v' u', List.mem_filterMap.mpr ⟨(l, k), hin, ?_⟩, Or.inr rfl⟩
        rw [e1]
        exact (h6 _).mpr ⟨⟨collideThroughPortal2_symm hcol, fun h => hf h.symm⟩, rfl⟩
    obtain ⟨c, hc, hceq⟩ := hins
    obtain ⟨e, he, hke⟩ := hto c (Or.inl hc)
    refine ⟨e, he, ?_⟩
    have hbodies : c.fst.body = u.body ∧ c.snd.body = v.body := by
      rcases hceq with rfl | rfl
      · unfold mkTeleportedCollision2
        by_cases h : u.body < v.body
        · rw [if_pos h]; exact ⟨rfl, rfl⟩
        · rw [if_neg h]; simp only; omega
      · unfold mkTeleportedCollision2
        rw [if_neg (by omega)]
        exact ⟨rfl, rfl⟩
    exact ⟨hke.1.trans hbodies.1, hke.2.trans hbodies.2⟩

theorem classify_total_of (hs : ∀ b ∈ s.bodies, b.Solid) {pairs : List (Nat × Nat)} (hset : IsOverlapSet (s.portalBoxes junk portals) pairs)
    (hu : ¬MeetUnsupported2 junk portals s) : ∀ p ∈ pairs, ∃ r, classify2 junk s portals ((s.teleportedBodies junk portals).map (·.1)) p = .ok r := by
  intro p hp
  obtain ⟨u, v, a, b, ca, cb, hp1, hp2, huv, hia, hib, hm, hlt, hub, hvb⟩ := portal_pair hs hset hp
  obtain ⟨l, t, h, _⟩ := (classify2_spec hs hp1 hp2 hia hib hlt hub hvb).2 fun h => hu ⟨u, v, a, b, ca, cb, huv, hia, hib, hm, h⟩
  exact ⟨_, h⟩

/-- **C57** with portals (partial). For bodies of positive size, with boxes (of the bodies and of their images through the portals) spread over at most
65536 average sizes, if the boxes of no two images meet that the program does not support together, and no scripted body collides with another body through a
portal, the computation succeeds, and
* the contacts through portals have strictly increasing pairs of bodies: there is at most one for each pair, with the smaller index first;
* a pair of bodies has a contact through a portal exactly if two images of the bodies, at least one of them through a portal, have a point in common at the
  end of the step, where pairs of which both are seen through portals do not count if the bodies have a point in common directly, and the bodies are not
  both scripted;
* a pair of bodies is in contact otherwise exactly if it is not made of two scripted bodies, the bodies collide as without portals, and their boxes at the end
  of the step meet; two boxes share at most two such contacts, others one.
Missing: scenes that are spread out further. -/
theorem C57_portals_partial (hne : s.bodies ≠ []) (hs : ∀ b ∈ s.bodies, b.Solid) (hp : portals ≠ []) (hsp : Spread (s.portalBoxes junk portals) 65536)
    (hu : ¬MeetUnsupported2 junk portals s) (hsc : ¬CollideScripted2 junk portals s) :
    ∃ cs, s.computeActiveSet2 junk portals = .ok cs ∧
      (cs.filterMap Contact2.portalPair).Pairwise (fun p q => p.1 < q.1 ∨ (p.1 = q.1 ∧ p.2 < q.2)) ∧
      (∀ i j, (i, j) ∈ cs.filterMap Contact2.portalPair ↔ i ≤ j ∧ ∃ (u v : Image) (a b : Body2), u.body = i ∧ v.body = j ∧
        s.bodies[i]? = some a ∧ s.bodies[j]? = some b ∧ CollideThroughPortal2 junk portals s u v ∧ ¬(a.fixed = true ∧ b.fixed = true)) ∧
      ∀ i j,
        ((i, j) ∈ cs.filterMap Contact2.directPair ↔ i < j ∧ ∃ a b, s.bodies[i]? = some a ∧ s.bodies[j]? = some b ∧
          ¬(a.fixed = true ∧ b.fixed = true) ∧ Collide2 s i j a b ∧ BoundsMeet2 (a.pointsAt s.q1 i) (b.pointsAt s.q1 j)) ∧
        (cs.filterMap Contact2.directPair).count (i, j) ≤ 2 ∧
        ((cs.filterMap Contact2.directPair).count (i, j) ≤ 1 ∨
          ∃ a b ra rb, s.bodies[i]? = some a ∧ s.bodies[j]? = some b ∧ a.geometry = .box ra ∧ b.geometry = .box rb) := by
  obtain ⟨pairs, hpairs, hset⟩ := portalOverlaps_ok hne hs hsp
  obtain ⟨out, l, hout, hl, hcl⟩ := classifyAll_total pairs ([], []) (classify_total_of hs hset hu)
  rw [List.nil_append] at hl
  obtain ⟨hsorted, hmem, hcomplete⟩ := portal_collisions hs hset hu hout
  have hgen : ∀ c ∈ out.2, ∃ d : Contact2, s.dispatchTeleported junk portals c = .ok [d] ∧ d.portalPair = some (c.fst.body, c.snd.body) := by
    intro c hc
    obtain ⟨_, hcol, a, b, ha, hb, hf, ⟨ra, hra⟩, rb, hrb⟩ := hmem c hc
    have heq : a.fixed = b.fixed := by
      by_contra hcon
      exact hsc ⟨_, _, a, b, hcol, ha, hb, hcon⟩
    have hfa : a.fixed = false := by
      rw [← heq] at hf
      simpa using hf
    exact dispatchTeleported_free hs hcol ha hb hfa (heq ▸ hfa) hra hrb
  classical
  have hgen' : ∃ g : TeleportedCollision → Contact2, ∀ c ∈ out.2, s.dispatchTeleported junk portals c = .ok [g c] ∧
      (g c).portalPair = some (c.fst.body, c.snd.body) := by
    refine ⟨fun c => if h : c ∈ out.2 then (hgen c h).choose else .teleported 0 0 0 0 0, fun c hc => ?_⟩
    simp only [hc, dif_pos]
    exact (hgen c hc).choose_spec
  obtain ⟨g, hg⟩ := hgen'
  have hdir : ∀ c ∈ out.1, c.portalPair = none := by
    intro c hc
    obtain ⟨h1, _, _⟩ := classifyAll_ok hout
    rcases (h1 c).mp hc with h | ⟨p, hp, r, hr, hc⟩
    · cases h
    · obtain ⟨u, v, a, b, ca, cb, hp1, hp2, huv, hia, hib, hm, hlt, hub, hvb⟩ := portal_pair hs hset hp
      obtain ⟨l, t, h, h2, _⟩ := (classify2_spec hs hp1 hp2 hia hib hlt hub hvb).2 fun h => hu ⟨u, v, a, b, ca, cb, huv, hia, hib, hm, h⟩
      rw [hr] at h
      cases h
      exact (h2 c hc).2
  have hportal : (out.1 ++ out.2.map g ++ s.computeBodyPlaneActiveSetAllPairs).filterMap Contact2.portalPair = out.2.map fun c => (c.fst.body, c.snd.body) := by
    rw [List.filterMap_append, List.filterMap_append]
    rw [List.filterMap_eq_nil_iff.mpr hdir, List.filterMap_eq_nil_iff.mpr fun c hc => (planes_notPortal hc).1, List.nil_append, List.append_nil,
      List.filterMap_map, ← List.filterMap_eq_map]
    exact List.filterMap_congr fun c hc => (hg c hc).2
  have hdirect : (out.1 ++ out.2.map g ++ s.computeBodyPlaneActiveSetAllPairs).filterMap Contact2.directPair = l.filterMap Contact2.pair := by
    rw [List.filterMap_append, List.filterMap_append, List.filterMap_eq_nil_iff.mpr fun c hc => (planes_notPortal hc).2, List.append_nil,
      List.filterMap_map]
    have : out.2.filterMap (Contact2.directPair ∘ g) = [] := by
      rw [List.filterMap_eq_nil_iff]
      intro c hc
      exact directPair_of_portal (hg c hc).2
    rw [this, List.append_nil, ← hl]
    exact List.filterMap_congr fun c hc => direct_of_portalPair_none (hdir c hc)
  have hcount := collect_count _ Contact2.pair pairs l hset.1 hcl fun p hpp here hh c hc => by
    obtain ⟨u, v, a, b, ca, cb, hp1, hp2, huv, hia, hib, hm, hlt, hub, hvb⟩ := portal_pair hs hset hpp
    obtain ⟨l', t, h, h2, _⟩ := (classify2_spec hs hp1 hp2 hia hib hlt hub hvb).2 fun h => hu ⟨u, v, a, b, ca, cb, huv, hia, hib, hm, h⟩
    simp only [h, Outcome.bind] at hh
    cases hh
    exact (h2 c hc).1
  refine ⟨out.1 ++ out.2.map g ++ s.computeBodyPlaneActiveSetAllPairs, ?_, ?_, ?_, fun i j => ?_⟩
  · have hpl : portals.isEmpty = false := by simpa using hp
    have hpairs' : getPotentialOverlaps (s.bodies.zipIdx.map (fun (x : Body2 × Nat) => toBox (s.endBox x.1 x.2)) ++
        (s.teleportedBodies junk portals).map (·.2)) = .ok pairs := hpairs
    simp only [computeActiveSet2, hpl, Bool.false_eq_true, if_false, computeBodyBodyActiveSetSpatialGridWithPortals, hpairs', hout, Outcome.bind,
      collect_map (s.dispatchTeleported junk portals) g out.2 fun c hc => (hg c hc).1]
  · rw [hportal]
    exact List.pairwise_map.mpr hsorted
  · intro i j
    rw [hportal, List.mem_map]
    constructor
    · rintro ⟨c, hc, he⟩
      cases he
      obtain ⟨h1, h2, a, b, ha, hb, hf, _⟩ := hmem c hc
      exact ⟨h1, c.fst, c.snd, a, b, rfl, rfl, ha, hb, h2, hf⟩
    · rintro ⟨hij, u, v, a, b, rfl, rfl, ha, hb, hcol, hf⟩
      obtain ⟨c, hc, h1, h2⟩ := hcomplete u v a b hij hcol ha hb hf
      exact ⟨c, hc, by rw [h1, h2]⟩
  · rw [hdirect]
    by_cases hij : (i, j) ∈ pairs
    · obtain ⟨u, v, a, b, ca, cb, hp1, hp2, huv, hia, hib, hm, hlt, hub, hvb⟩ := portal_pair hs hset hij
      obtain ⟨l', t, h, h2, h3, h4, h5, _⟩ := (classify2_spec hs hp1 hp2 hia hib hlt hub hvb).2 fun h => hu ⟨u, v, a, b, ca, cb, huv, hia, hib, hm, h⟩
      have hc := (hcount (i, j)).2 l' hij (by simp only [h, Outcome.bind])
      by_cases hvia : u.via = none ∧ v.via = none
      · have e1 : u.body = i := hub hvia.1
        have e2 : v.body = j := hvb hvia.2
        have ha := hia.1
        have hb := hib.1
        rw [e1] at ha
        rw [e2] at hb
        have hca : ca = seg2 s.q1 i := by
          have := hia.2
          rw [hvia.1] at this
          rw [← e1]
          exact this
        have hcb : cb = seg2 s.q1 j := by
          have := hib.2
          rw [hvia.2] at this
          rw [← e2]
          exact this
        refine ⟨?_, by omega, ?_⟩
        · rw [← List.count_pos_iff, hc, List.length_pos_iff, h3, e1, e2]
          constructor
          · rintro ⟨_, _, hf, hcol⟩
            refine ⟨hlt, a, b, ha, hb, hf, hcol, ?_⟩
            rw [hca, hcb, e1, e2] at hm
            exact hm
          · rintro ⟨_, a', b', ha', hb', hf, hcol, _⟩
            rw [ha] at ha'
            rw [hb] at hb'
            cases ha'
            cases hb'
            exact ⟨hvia.1, hvia.2, hf, hcol⟩
        · rcases h5 with h5 | ⟨⟨ra, hra⟩, rb, hrb⟩
          · exact Or.inl (by omega)
          · exact Or.inr ⟨a, b, ra, rb, ha, hb, hra, hrb⟩
      · have hl' : l' = [] := by
          by_contra hcon
          obtain ⟨h6, h7, _⟩ := h3.mp hcon
          exact hvia ⟨h6, h7⟩
        rw [hl'] at hc
        refine ⟨?_, by rw [hc]; simp, Or.inl (by rw [hc]; simp)⟩
        rw [← List.count_pos_iff, hc]
        constructor
        · intro h
          simp at h
        · rintro ⟨_, a', b', ha', hb', _⟩
          have hl1 := (List.getElem?_eq_some_iff.mp ha').1
          have hl2 := (List.getElem?_eq_some_iff.mp hb').1
          refine absurd ⟨?_, ?_⟩ hvia
          · rw [← hp1]; simp [imageOf, hl1]
          · rw [← hp2]; simp [imageOf, hl2]
    · have hc := (hcount (i, j)).1 hij
      refine ⟨?_, by omega, Or.inl (by omega)⟩
      rw [← List.count_pos_iff, hc]
      constructor
      · intro h
        simp at h
      · rintro ⟨hlt, a, b, ha, hb, _, _, hm⟩
        refine absurd ((hset.2 i j).mpr ⟨hlt, _, _, ?_, ?_, (boundsMeet_iff (hs a (List.mem_of_getElem? ha)) (hs b (List.mem_of_getElem? hb))
          (seg2 s.q1 i) (seg2 s.q1 j) s.q1 i j).mp hm⟩) hij
        · rw [portalBoxes_get (List.getElem?_eq_some_iff.mp ha).1, ha]
          rfl
        · rw [portalBoxes_get (List.getElem?_eq_some_iff.mp hb).1, hb]
          rfl

/-- **C57** with portals, the rest: if the boxes of two images meet that the program does not support together, or a scripted body collides with a body that
is not scripted through a portal, the program exits with an error message. -/
theorem C57_portals_exits (hne : s.bodies ≠ []) (hs : ∀ b ∈ s.bodies, b.Solid) (hp : portals ≠ []) (hsp : Spread (s.portalBoxes junk portals) 65536)
    (h : MeetUnsupported2 junk portals s ∨ CollideScripted2 junk portals s) : s.computeActiveSet2 junk portals = .exit := by
  obtain ⟨pairs, hpairs, hset⟩ := portalOverlaps_ok hne hs hsp
  have hpl : portals.isEmpty = false := by simpa using hp
  have hpairs' : getPotentialOverlaps (s.bodies.zipIdx.map (fun (x : Body2 × Nat) => toBox (s.endBox x.1 x.2)) ++
      (s.teleportedBodies junk portals).map (·.2)) = .ok pairs := hpairs
  by_cases hu : MeetUnsupported2 junk portals s
  · have hex : classifyAll junk s portals ((s.teleportedBodies junk portals).map (·.1)) pairs ([], []) = .exit := by
      refine classifyAll_exit pairs _ ?_ ?_
      · intro p hp
        obtain ⟨u, v, a, b, ca, cb, hp1, hp2, huv, hia, hib, hm, hlt, hub, hvb⟩ := portal_pair hs hset hp
        have := classify2_spec hs hp1 hp2 hia hib hlt hub hvb
        by_cases hns : UnsupportedImages u v a b
        · exact Or.inr (this.1 hns)
        · obtain ⟨l, t, h, _⟩ := this.2 hns
          exact Or.inl ⟨_, h⟩
      · obtain ⟨u, v, a, b, ca, cb, huv, hia, hib, hm, hns⟩ := hu
        obtain ⟨k, l, hk, hl, hkl⟩ := pair_of_images hs hset huv hia hib hm
        rcases hkl with hin | hin
        · refine ⟨(k, l), hin, ?_⟩
          obtain ⟨u', v', a', b', ca', cb', hp1, hp2, _, hia', hib', _, hlt, hub, hvb⟩ := portal_pair hs hset hin
          obtain rfl : u' = u := hp1.symm.trans hk
          obtain rfl : v' = v := hp2.symm.trans hl
          obtain ⟨rfl, rfl⟩ := isImage2_unique hia hia'
          obtain ⟨rfl, rfl⟩ := isImage2_unique hib hib'
          exact (classify2_spec hs hp1 hp2 hia hib hlt hub hvb).1 hns
        · refine ⟨(l, k), hin, ?_⟩
          obtain ⟨v', u', b', a', cb', ca', hp1, hp2, _, hib', hia', _, hlt, hub, hvb⟩ := portal_pair hs hset hin
          obtain rfl : u' = u := hp2.symm.trans hk
          obtain rfl : v' = v := hp1.symm.trans hl
          obtain ⟨rfl, rfl⟩ := isImage2_unique hia hia'
          obtain ⟨rfl, rfl⟩ := isImage2_unique hib hib'
          exact (classify2_spec hs hp1 hp2 hib hia hlt hub hvb).1 (unsupportedImages_symm hns)
    simp only [computeActiveSet2, hpl, Bool.false_eq_true, if_false, computeBodyBodyActiveSetSpatialGridWithPortals, hpairs', hex, Outcome.bind]
  · have hsc := h.resolve_left hu
    obtain ⟨out, l, hout, hl, hcl⟩ := classifyAll_total pairs ([], []) (classify_total_of hs hset hu)
    obtain ⟨hsorted, hmem, hcomplete⟩ := portal_collisions hs hset hu hout
    have hex : collect (s.dispatchTeleported junk portals) out.2 = .exit := by
      refine collect_exit _ _ ?_ ?_
      · intro c hc
        obtain ⟨_, hcol, a, b, ha, hb, hf, ⟨ra, hra⟩, rb, hrb⟩ := hmem c hc
        by_cases heq : a.fixed = b.fixed
        · have hfa : a.fixed = false := by
            rw [← heq] at hf
            simpa using hf
          obtain ⟨d, hd, _⟩ := dispatchTeleported_free hs hcol ha hb hfa (heq ▸ hfa) hra hrb
          exact Or.inl ⟨_, hd⟩
        · exact Or.inr (dispatchTeleported_exit ha hb heq)
      · obtain ⟨u, v, a, b, hcol, ha, hb, hne'⟩ := hsc
        rcases le_total u.body v.body with hle | hle
        · obtain ⟨c, hc, h1, h2⟩ := hcomplete u v a b hle hcol ha hb (by rintro ⟨h1, h2⟩; exact hne' (h1.trans h2.symm))
          exact ⟨c, hc, dispatchTeleported_exit (by rw [h1]; exact ha) (by rw [h2]; exact hb) hne'⟩
        · obtain ⟨c, hc, h1, h2⟩ := hcomplete v u b a hle (collideThroughPortal2_symm hcol) hb ha (by rintro ⟨h1, h2⟩; exact hne' (h2.trans h1.symm))
          exact ⟨c, hc, dispatchTeleported_exit (by rw [h1]; exact hb) (by rw [h2]; exact ha) hne'.symm⟩
    simp only [computeActiveSet2, hpl, Bool.false_eq_true, if_false, computeBodyBodyActiveSetSpatialGridWithPortals, hpairs', hout, hex, Outcome.bind]

/-! ## Examples -/

theorem free_circles (hs : ∀ b ∈ s.bodies, (∃ r, b.geometry = .circle r) ∧ b.fixed = false) :
    ¬MeetUnsupported2 junk portals s ∧ ¬CollideScripted2 junk portals s := by
  constructor
  · rintro ⟨u, v, a, b, ca, cb, _, hia, hib, _, h⟩
    obtain ⟨h1, h2⟩ := hs a (List.mem_of_getElem? hia.1)
    obtain ⟨h3, h4⟩ := hs b (List.mem_of_getElem? hib.1)
    unfold UnsupportedImages at h
    split at h
    · exact h.1 (h2.trans h4.symm)
    · exact h.1 ⟨h1, h3⟩
  · rintro ⟨u, v, a, b, _, ha, hb, h⟩
    exact h ((hs a (List.mem_of_getElem? ha)).2.trans (hs b (List.mem_of_getElem? hb)).2.symm)

theorem discs_apart {c d z : V2 ℝ} {r r' : ℝ} (hr : 0 < r) (hr' : 0 < r') (h : c.x + r + r' < d.x) : ¬(InBounds2 (discSet c r) z ∧ InBounds2 (discSet d r') z) := by
  rintro ⟨⟨_, ⟨u, hu, hu'⟩, _⟩, ⟨w, hw, hw'⟩, _⟩
  simp only [discSet, Set.mem_ofPred_eq] at hu hw
  have h1 : (u.x - c.x) ^ 2 ≤ r ^ 2 := by nlinarith [sq_nonneg (u.y - c.y)]
  have h2 : (w.x - d.x) ^ 2 ≤ r' ^ 2 := by nlinarith [sq_nonneg (w.y - d.y)]
  have h3 := (abs_le_of_sq_le_sq' h1 hr.le).2
  have h4 := (abs_le_of_sq_le_sq' h2 hr'.le).1
  linarith

/-- A disc at each end of a periodic channel of length 10; they touch through the portal. -/
noncomputable def channelDiscs : Step2 where
  bodies := [⟨.circle 1, false⟩, ⟨.circle 1, false⟩]
  planes := []
  q0 := fun k => if k = 0 then 1 / 2 else if k = 3 then 9 else 0
  q1 := fun k => if k = 0 then 1 / 2 else if k = 3 then 9 else 0
  v := fun _ => 0

theorem channelDiscs_boxes (junk : ℝ → ℤ) : channelDiscs.portalBoxes junk [channel 10] =
    [⟨![-1/2, -1], ![3/2, 1]⟩, ⟨![8, -1], ![10, 1]⟩, ⟨![19/2, -1], ![23/2, 1]⟩, ⟨![-2, -1], ![0, 1]⟩] := by
  have h0 : aabbTouchesPortal (channel 10) (channelDiscs.endBox ⟨.circle 1, false⟩ 0) = some false := by
    simp [aabbTouchesPortal, aabbInHalfPlane, channel, channelDiscs, endBox, Geometry2D.aabb, circleAABB, seg2, V2.dot]
    norm_num
  have h1 : aabbTouchesPortal (channel 10) (channelDiscs.endBox ⟨.circle 1, false⟩ 1) = some true := by
    simp [aabbTouchesPortal, aabbInHalfPlane, channel, channelDiscs, endBox, Geometry2D.aabb, circleAABB, seg2, V2.dot]
    norm_num
  have ht : channelDiscs.teleportedBodies junk [channel 10] =
      [(⟨0, 0, false⟩, toBox (circleAABB 1 ⟨21/2, 0⟩)), (⟨1, 0, true⟩, toBox (circleAABB 1 ⟨-1, 0⟩))] := by
    have e0 : teleportPoint junk (channel 10) false (seg2 channelDiscs.q1 0) = ⟨21/2, 0⟩ := by
      ext <;> simp [teleportPoint, channel, channelDiscs, PlanarPortal.teleportPointThroughPlaneA, V2.dot, seg2] <;> norm_num
    have e1 : teleportPoint junk (channel 10) true (seg2 channelDiscs.q1 1) = ⟨-1, 0⟩ := by
      ext <;> simp [teleportPoint, channel, channelDiscs, PlanarPortal.teleportPointThroughPlaneB, V2.dot, seg2] <;> norm_num
    have hb : channelDiscs.bodies = [⟨.circle 1, false⟩, ⟨.circle 1, false⟩] := rfl
    simp only [teleportedBodies, hb, List.zipIdx_cons, List.zipIdx_nil, List.flatMap_cons, List.flatMap_nil, List.filterMap_cons, List.filterMap_nil,
      zero_add, h0, h1, Option.map_some, e0, e1, Geometry2D.aabb, List.append_nil]
  unfold portalBoxes
  rw [ht]
  simp [channelDiscs, endBox, Geometry2D.aabb, circleAABB, seg2, toBox]
  norm_num

theorem channelDiscs_spread (junk : ℝ → ℤ) : Spread (channelDiscs.portalBoxes junk [channel 10]) 65536 := by
  rw [channelDiscs_boxes]
  have hw : cellWidth ([⟨![-1/2, -1], ![3/2, 1]⟩, ⟨![8, -1], ![10, 1]⟩, ⟨![19/2, -1], ![23/2, 1]⟩, ⟨![-2, -1], ![0, 1]⟩] : List (Box 2 ℝ)) = 2 := by
    simp [cellWidth, maxCoeff, Fin.tail]
    norm_num
  intro a ha b hb i
  rw [hw]
  simp only [List.mem_cons, List.not_mem_nil, or_false] at ha hb
  rcases ha with rfl | rfl | rfl | rfl <;> rcases hb with rfl | rfl | rfl | rfl <;> fin_cases i <;> simp <;> norm_num

/-- Non-vacuity of `C57_portals_partial`: the two discs touch through the portal, and there is one contact for it. -/
theorem C57_channel (junk : ℝ → ℤ) : ∃ cs, channelDiscs.computeActiveSet2 junk [channel 10] = .ok cs ∧
    (0, 1) ∈ cs.filterMap Contact2.portalPair ∧ (cs.filterMap Contact2.portalPair).Nodup ∧ cs.filterMap Contact2.directPair = [] := by
  obtain ⟨hu, hsc⟩ := free_circles (junk := junk) (portals := [channel 10]) (s := channelDiscs) (by simp [channelDiscs])
  obtain ⟨cs, h1, h2, h3, h4⟩ := C57_portals_partial (s := channelDiscs) (by simp [channelDiscs]) (by simp [channelDiscs, Body2.Solid]) (by simp)
    (channelDiscs_spread junk) hu hsc
  refine ⟨cs, h1, ?_, ?_, ?_⟩
  · rw [h3]
    refine ⟨by norm_num, ⟨0, some (0, false)⟩, ⟨1, none⟩, ⟨.circle 1, false⟩, ⟨.circle 1, false⟩, rfl, rfl, rfl, rfl,
      ⟨⟨.circle 1, false⟩, ⟨.circle 1, false⟩, ⟨21/2, 0⟩, ⟨9, 0⟩, ⟨rfl, channel 10, rfl, Or.inl ⟨rfl, ?_, ?_⟩⟩, ⟨rfl, ?_⟩, Or.inl (by simp),
        ⟨⟨10, 0⟩, ?_, ?_⟩, by simp⟩, by simp⟩
    · refine ⟨⟨-1/2, 0⟩, ⟨⟨⟨-1/2, 0⟩, ?_, le_rfl⟩, ⟨⟨1/2, 0⟩, ?_, by norm_num⟩, ⟨⟨1/2, 0⟩, ?_, le_rfl⟩, ⟨1/2, 0⟩, ?_, le_rfl⟩, ?_⟩
      · simp [Body2.pointsAt, PosedBody2D.points, discSet, channelDiscs]; norm_num
      · simp [Body2.pointsAt, PosedBody2D.points, discSet, channelDiscs]
      · simp [Body2.pointsAt, PosedBody2D.points, discSet, channelDiscs]
      · simp [Body2.pointsAt, PosedBody2D.points, discSet, channelDiscs]
      · simp [channel, HalfPlane.height]
        norm_num
    · ext <;> simp [channel, channelDiscs, PlanarPortal.teleportPointThroughPlaneA, V2.dot] <;> norm_num
    · ext <;> simp [channelDiscs]
    · simp [Body2.pointsSeen, PosedBody2D.points, discSet]; norm_num
    · simp [Body2.pointsSeen, PosedBody2D.points, discSet]; norm_num
  · refine h2.imp ?_
    rintro ⟨a, b⟩ ⟨c, d⟩ h he
    cases he
    simp only at h
    omega
  · rw [List.eq_nil_iff_forall_not_mem]
    rintro ⟨i, j⟩ h
    obtain ⟨hij, a, b, ha, hb, _, _, z, hz⟩ := (h4 i j).1.mp h
    have hj := (List.getElem?_eq_some_iff.mp hb).1
    simp only [channelDiscs, List.length_cons, List.length_nil] at hj
    have h01 : i = 0 ∧ j = 1 := by omega
    obtain ⟨rfl, rfl⟩ := h01
    cases ha
    cases hb
    exact discs_apart (c := ⟨channelDiscs.q1 0, channelDiscs.q1 1⟩) (d := ⟨channelDiscs.q1 3, channelDiscs.q1 4⟩) one_pos one_pos
      (by simp [channelDiscs]; norm_num) hz

/-- A small disc that moves through another one during the step, in the middle of the channel -/
noncomputable def passingDiscs : Step2 where
  bodies := [⟨.circle (1 / 2), false⟩, ⟨.circle (1 / 2), false⟩]
  planes := []
  q0 := fun k => if k = 0 then 3 else if k = 3 then 5 else 0
  q1 := fun k => if k = 0 then 3 + 4 else if k = 3 then 5 else 0
  v := fun _ => 0

theorem passingDiscs_boxes (junk : ℝ → ℤ) : passingDiscs.portalBoxes junk [channel 10] =
    [⟨![13/2, -1/2], ![15/2, 1/2]⟩, ⟨![9/2, -1/2], ![11/2, 1/2]⟩] := by
  have h0 : aabbTouchesPortal (channel 10) (passingDiscs.endBox ⟨.circle (1 / 2), false⟩ 0) = none := by
    simp [aabbTouchesPortal, aabbInHalfPlane, channel, passingDiscs, endBox, Geometry2D.aabb, circleAABB, seg2, V2.dot]
    norm_num
  have h1 : aabbTouchesPortal (channel 10) (passingDiscs.endBox ⟨.circle (1 / 2), false⟩ 1) = none := by
    simp [aabbTouchesPortal, aabbInHalfPlane, channel, passingDiscs, endBox, Geometry2D.aabb, circleAABB, seg2, V2.dot]
    norm_num
  have hb : passingDiscs.bodies = [⟨.circle (1 / 2), false⟩, ⟨.circle (1 / 2), false⟩] := rfl
  have ht : passingDiscs.teleportedBodies junk [channel 10] = [] := by
    simp only [teleportedBodies, hb, List.zipIdx_cons, List.zipIdx_nil, List.flatMap_cons, List.flatMap_nil, List.filterMap_cons, List.filterMap_nil,
      zero_add, h0, h1, Option.map_none, List.append_nil]
  unfold portalBoxes
  rw [ht]
  simp [passingDiscs, endBox, Geometry2D.aabb, circleAABB, seg2, toBox]
  norm_num

theorem passingDiscs_collisionBoxes : passingDiscs.collisionBoxes = [⟨![5/2, -1/2], ![15/2, 1/2]⟩, ⟨![9/2, -1/2], ![11/2, 1/2]⟩] := by
  simp [collisionBoxes, passingDiscs, toBox, Geometry2D.collisionAABB, circleCollisionAABB, seg2]
  norm_num

/-- C57, finding: the same two discs, one of which moves through the other during the step. Without portals there is a contact. As soon as the scene has a
portal, also one that no body is near, there is none: the boxes are then those at the end of the step only. -/
theorem C57_false_portal_swept (junk : ℝ → ℤ) :
    (∃ cs, passingDiscs.computeActiveSet2 junk [] = .ok cs ∧ (0, 1) ∈ cs.filterMap Contact2.pair) ∧
    ∃ cs, passingDiscs.computeActiveSet2 junk [channel 10] = .ok cs ∧ cs.filterMap Contact2.portalPair = [] ∧ cs.filterMap Contact2.directPair = [] := by
  have hsolid : ∀ b ∈ passingDiscs.bodies, b.Solid := by simp [passingDiscs, Body2.Solid]
  have hcirc : ∀ b ∈ passingDiscs.bodies, (∃ r, b.geometry = .circle r) ∧ b.fixed = false := by simp [passingDiscs]
  constructor
  · obtain ⟨cs, h1, h2⟩ := C57_exact_partial (junk := junk) (s := passingDiscs) (by simp [passingDiscs]) hsolid (by
      rw [passingDiscs_collisionBoxes]
      have hw : cellWidth ([⟨![5/2, -1/2], ![15/2, 1/2]⟩, ⟨![9/2, -1/2], ![11/2, 1/2]⟩] : List (Box 2 ℝ)) = 3 := by
        simp [cellWidth, maxCoeff, Fin.tail]
        norm_num
      intro a ha b hb i
      rw [hw]
      simp only [List.mem_cons, List.not_mem_nil, or_false] at ha hb
      rcases ha with rfl | rfl <;> rcases hb with rfl | rfl <;> fin_cases i <;> simp <;> norm_num) (by
      intro i j a b A B _ ha hb _ _ _ h
      exact h.1 ((hcirc a (List.mem_of_getElem? ha)).2.trans (hcirc b (List.mem_of_getElem? hb)).2.symm))
    refine ⟨cs, h1, ((h2 0 1).1).mpr ⟨by norm_num, ⟨.circle (1 / 2), false⟩, ⟨.circle (1 / 2), false⟩, rfl, rfl, by simp, 1 / 2, by norm_num, by norm_num,
      ⟨5, 0⟩, ?_, ?_⟩⟩ <;> simp [InDisc, distSq, moveTo, passingDiscs] <;> norm_num
  · obtain ⟨hu, hsc⟩ := free_circles (junk := junk) (portals := [channel 10]) hcirc
    obtain ⟨cs, h1, h2, h3, h4⟩ := C57_portals_partial (junk := junk) (portals := [channel 10]) (by simp [passingDiscs]) hsolid (by simp) (by
      rw [passingDiscs_boxes]
      have hw : cellWidth ([⟨![13/2, -1/2], ![15/2, 1/2]⟩, ⟨![9/2, -1/2], ![11/2, 1/2]⟩] : List (Box 2 ℝ)) = 1 := by
        simp [cellWidth, maxCoeff, Fin.tail]
        norm_num
      intro a ha b hb i
      rw [hw]
      simp only [List.mem_cons, List.not_mem_nil, or_false] at ha hb
      rcases ha with rfl | rfl <;> rcases hb with rfl | rfl <;> fin_cases i <;> simp <;> norm_num) hu hsc
    refine ⟨cs, h1, ?_, ?_⟩
    · rw [List.eq_nil_iff_forall_not_mem]
      rintro ⟨i, j⟩ h
      obtain ⟨_, u, v, a, b, rfl, rfl, ha, hb, ⟨a', b', ca, cb, hia, hib, hvia, _⟩, _⟩ := (h3 i j).mp h
      have hno : ∀ (u : Image) (b : Body2) (c : V2 ℝ), IsImage2 junk [channel 10] passingDiscs u b c → u.via = none := by
        intro u b c hi
        obtain ⟨k, hk, hbk⟩ := box_of_image2 hsolid hi
        have hlt := (List.getElem?_eq_some_iff.mp hbk).1
        rw [passingDiscs_boxes] at hlt
        rw [← hk]
        have h2 : k < passingDiscs.bodies.length := hlt
        simp [imageOf, h2]
      rcases hvia with hvia | hvia
      · exact hvia (hno _ _ _ hia)
      · exact hvia (hno _ _ _ hib)
    · rw [List.eq_nil_iff_forall_not_mem]
      rintro ⟨i, j⟩ h
      obtain ⟨hij, a, b, ha, hb, _, _, z, hz⟩ := (h4 i j).1.mp h
      have hj := (List.getElem?_eq_some_iff.mp hb).1
      simp only [passingDiscs, List.length_cons, List.length_nil] at hj
      have h01 : i = 0 ∧ j = 1 := by omega
      obtain ⟨rfl, rfl⟩ := h01
      cases ha
      cases hb
      exact discs_apart (c := ⟨passingDiscs.q1 3, passingDiscs.q1 4⟩) (d := ⟨passingDiscs.q1 0, passingDiscs.q1 1⟩) (by norm_num : (0 : ℝ) < 1 / 2)
        (by norm_num : (0 : ℝ) < 1 / 2) (by simp [passingDiscs]; norm_num) hz.symm

/-- A square and a disc at the ends of the channel -/
noncomputable def channelSquare : Step2 where
  bodies := [⟨.box ⟨1, 1⟩, false⟩, ⟨.circle 1, false⟩]
  planes := []
  q0 := fun k => if k = 0 then 1 / 2 else if k = 3 then 9 else 0
  q1 := fun k => if k = 0 then 1 / 2 else if k = 3 then 9 else 0
  v := fun _ => 0

theorem channelSquare_boxes (junk : ℝ → ℤ) : channelSquare.portalBoxes junk [channel 10] =
    [⟨![-1/2, -1], ![3/2, 1]⟩, ⟨![8, -1], ![10, 1]⟩, ⟨![19/2, -1], ![23/2, 1]⟩, ⟨![-2, -1], ![0, 1]⟩] := by
  have hang : ang2 channelSquare.q1 0 = 0 := by simp [ang2, channelSquare]
  have h0 : aabbTouchesPortal (channel 10) (channelSquare.endBox ⟨.box ⟨1, 1⟩, false⟩ 0) = some false := by
    simp [aabbTouchesPortal, aabbInHalfPlane, channel, endBox, Geometry2D.aabb, boxAABB, hang, rotation2D, M22.cwiseAbs, M22.mulVec]
    simp [channelSquare, seg2, V2.dot]
    norm_num
  have h1 : aabbTouchesPortal (channel 10) (channelSquare.endBox ⟨.circle 1, false⟩ 1) = some true := by
    simp [aabbTouchesPortal, aabbInHalfPlane, channel, channelSquare, endBox, Geometry2D.aabb, circleAABB, seg2, V2.dot]
    norm_num
  have ht : channelSquare.teleportedBodies junk [channel 10] =
      [(⟨0, 0, false⟩, toBox (boxAABB ⟨1, 1⟩ ⟨21/2, 0⟩ 0)), (⟨1, 0, true⟩, toBox (circleAABB 1 ⟨-1, 0⟩))] := by
    have e0 : teleportPoint junk (channel 10) false (seg2 channelSquare.q1 0) = ⟨21/2, 0⟩ := by
      ext <;> simp [teleportPoint, channel, channelSquare, PlanarPortal.teleportPointThroughPlaneA, V2.dot, seg2] <;> norm_num
    have e1 : teleportPoint junk (channel 10) true (seg2 channelSquare.q1 1) = ⟨-1, 0⟩ := by
      ext <;> simp [teleportPoint, channel, channelSquare, PlanarPortal.teleportPointThroughPlaneB, V2.dot, seg2] <;> norm_num
    have hb : channelSquare.bodies = [⟨.box ⟨1, 1⟩, false⟩, ⟨.circle 1, false⟩] := rfl
    simp only [teleportedBodies, hb, List.zipIdx_cons, List.zipIdx_nil, List.flatMap_cons, List.flatMap_nil, List.filterMap_cons, List.filterMap_nil,
      zero_add, h0, h1, Option.map_some, e0, e1, Geometry2D.aabb, List.append_nil, hang]
  unfold portalBoxes
  rw [ht]
  simp [channelSquare, endBox, Geometry2D.aabb, circleAABB, boxAABB, rotation2D, M22.cwiseAbs, M22.mulVec, seg2, ang2, toBox]
  norm_num

/-- C57: bodies other than circles are not supported near portals. The image of the square meets the box of the disc, and the program exits. -/
theorem C57_portal_square (junk : ℝ → ℤ) : channelSquare.computeActiveSet2 junk [channel 10] = .exit := by
  have hsolid : ∀ b ∈ channelSquare.bodies, b.Solid := by simp [channelSquare, Body2.Solid]
  have hi : IsImage2 junk [channel 10] channelSquare ⟨0, some (0, false)⟩ ⟨.box ⟨1, 1⟩, false⟩ ⟨21/2, 0⟩ := by
    refine ⟨rfl, channel 10, rfl, Or.inl ⟨rfl, ⟨⟨-1/2, 0⟩, ⟨⟨⟨-1/2, 0⟩, ?_, le_rfl⟩, ⟨⟨1/2, 0⟩, ?_, by norm_num⟩, ⟨⟨1/2, 0⟩, ?_, le_rfl⟩, ⟨1/2, 0⟩, ?_, le_rfl⟩,
      ?_⟩, ?_⟩⟩
    · exact ⟨-1, 0, by simp, by simp, by ext <;> simp [channelSquare]; norm_num⟩
    · exact ⟨0, 0, by simp, by simp, by ext <;> simp [channelSquare]⟩
    · exact ⟨0, 0, by simp, by simp, by ext <;> simp [channelSquare]⟩
    · exact ⟨0, 0, by simp, by simp, by ext <;> simp [channelSquare]⟩
    · simp [channel, HalfPlane.height]
      norm_num
    · ext <;> simp [channel, channelSquare, PlanarPortal.teleportPointThroughPlaneA, V2.dot] <;> norm_num
  have hj : IsImage2 junk [channel 10] channelSquare ⟨1, none⟩ ⟨.circle 1, false⟩ ⟨9, 0⟩ := ⟨rfl, by ext <;> simp [channelSquare]⟩
  refine C57_portals_exits (by simp [channelSquare]) hsolid (by simp) ?_ (Or.inl ⟨_, _, _, _, _, _, by simp, hi, hj, ?_, ?_⟩)
  · rw [channelSquare_boxes, ← channelDiscs_boxes junk]
    exact channelDiscs_spread junk
  · refine boundsMeet_of_common (z := ⟨10, 0⟩) ⟨-1/2, 0, by simp; norm_num, by simp, ?_⟩ ?_
    · ext <;> simp [channelSquare]
      norm_num
    · simp [Body2.pointsSeen, PosedBody2D.points, discSet]
      norm_num
  · unfold UnsupportedImages
    rw [if_neg (by simp)]
    refine ⟨?_, Or.inl (by simp)⟩
    rintro ⟨⟨r, h⟩, _⟩
    cases h

end Scisim
