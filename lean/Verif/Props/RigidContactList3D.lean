import Verif.Lemmas.RigidContactLists3D
import Verif.Props.RigidContacts3D
/-!
# C61: which contacts there are in space
-/

namespace Scisim

open Matrix Step3

variable {axis : Vec3 → Vec3 → Vec3} {s : Step3} {portals : List Portal3} {cs : List Contact3} {c : Contact3}

/-! ## The three parts of the list -/

theorem ordered_kind {i j : Nat} {a b : SceneBody3} {l : List Contact3} (h : s.dispatchOrdered i j a b = .ok l) (hc : c ∈ l) :
    c.planePair = none ∧ c.cylinderPair = none := by
  unfold dispatchOrdered at h
  split at h
  · cases h
    unfold boxBoxNarrowPhaseCollision at hc
    dsimp only at hc
    split at hc <;> obtain ⟨p, _, rfl⟩ := List.mem_map.mp hc <;> exact ⟨rfl, rfl⟩
  · cases h
    unfold sphereSphereNarrowPhaseCollision at hc
    dsimp only at hc
    split at hc
    · split at hc <;> rw [List.mem_singleton] at hc <;> subst hc <;> exact ⟨rfl, rfl⟩
    · cases hc
  · unfold stapleStapleNarrowPhaseCollision at h
    split at h <;> cases h
    cases hc
  · cases h
    unfold meshMeshNarrowPhaseCollision at hc
    dsimp only at hc
    split at hc <;> obtain ⟨p, _, rfl⟩ := List.mem_map.mp hc <;> exact ⟨rfl, rfl⟩
  · cases h

theorem bodies_kind {l : List Contact3} (h : s.computeActiveSetBodyBodySpatialGrid axis portals = .ok l) (hc : c ∈ l) :
    c.planePair = none ∧ c.cylinderPair = none := by
  unfold computeActiveSetBodyBodySpatialGrid at h
  dsimp only at h
  obtain ⟨pairs, _, h⟩ := Outcome.bind_ok_iff.mp h
  obtain ⟨r, hr, h⟩ := Outcome.bind_ok_iff.mp h
  obtain ⟨tl, ht, h⟩ := Outcome.bind_ok_iff.mp h
  cases h
  rcases List.mem_append.mp hc with hc | hc
  · rcases ((classifyAll_ok hr).1 c).mp hc with hc | ⟨p, _, r', h4, h5⟩
    · cases hc
    · rcases (classify3_parts h4).1 with h6 | h6
      · rw [h6] at h5; cases h5
      · unfold dispatchNarrowPhaseCollision at h6
        split at h6
        · split at h6
          · injection h6 with h7; rw [← h7] at h5; cases h5
          · split at h6 <;> exact ordered_kind h6 h5
        · cases h6
  · obtain ⟨t, _, here, h2, h3⟩ := ((Step2.collect_ok ht).1 c).mp hc
    unfold generateTeleportedCollision at h2
    split at h2
    · split at h2
      · dsimp only at h2
        split at h2
        · cases h2; rw [List.mem_singleton] at h3; subst h3; exact ⟨rfl, rfl⟩
        · split at h2
          · cases h2; rw [List.mem_singleton] at h3; subst h3; exact ⟨rfl, rfl⟩
          · split at h2 <;> cases h2
            rw [List.mem_singleton] at h3; subst h3; exact ⟨rfl, rfl⟩
      · cases h2
    · cases h2

theorem plane_kind {k : Nat} {p : Plane3} {i : Nat} {b : SceneBody3} {l : List Contact3} (h : s.bodyPlane k p i b = .ok l) (hc : c ∈ l) :
    c.pair = none ∧ c.planePair = some (i, k) ∧ c.cylinderPair = none := by
  unfold bodyPlane at h
  split at h
  · cases h; cases hc
  · split at h
    · cases h
      obtain ⟨e, _, rfl⟩ := List.mem_map.mp hc
      exact ⟨rfl, rfl, rfl⟩
    · cases h
      split at hc
      · rw [List.mem_singleton] at hc; subst hc; exact ⟨rfl, rfl, rfl⟩
      · cases hc
    · cases h
    · cases h
      obtain ⟨e, _, rfl⟩ := List.mem_map.mp hc
      exact ⟨rfl, rfl, rfl⟩

theorem cylinder_kind {k : Nat} {cyl : Cylinder3} {i : Nat} {b : SceneBody3} {l : List Contact3} (h : s.bodyCylinder k cyl i b = .ok l) (hc : c ∈ l) :
    c.pair = none ∧ c.planePair = none ∧ c.cylinderPair = some (i, cyl) := by
  unfold bodyCylinder at h
  split at h
  · cases h; cases hc
  · split at h
    · cases h
      split at hc
      · rw [List.mem_singleton] at hc; subst hc; exact ⟨rfl, rfl, rfl⟩
      · cases hc
    · cases h
      obtain ⟨e, _, rfl⟩ := List.mem_map.mp hc
      exact ⟨rfl, rfl, rfl⟩
    · cases h
    · cases h

/-- The contacts with planes are those found for one body and one plane. -/
theorem plane_part (h : s.computeActiveSet3 axis portals = .ok cs) (hc : c.planePair ≠ none) :
    c ∈ cs ↔ ∃ p k b i l, s.planes[k]? = some p ∧ s.bodies[i]? = some b ∧ s.bodyPlane k p i b = .ok l ∧ c ∈ l := by
  unfold computeActiveSet3 at h
  obtain ⟨lb, h1, h⟩ := Outcome.bind_ok_iff.mp h
  obtain ⟨lp, h2, h⟩ := Outcome.bind_ok_iff.mp h
  obtain ⟨lc, h3, h⟩ := Outcome.bind_ok_iff.mp h
  cases h
  unfold computeBodyPlaneActiveSetAllPairs at h2
  unfold computeBodyCylinderActiveSetAllPairs at h3
  rw [List.mem_append, List.mem_append]
  have hmem : c ∈ lp ↔ ∃ p k b i l, s.planes[k]? = some p ∧ s.bodies[i]? = some b ∧ s.bodyPlane k p i b = .ok l ∧ c ∈ l := by
    rw [(Step2.collect_ok h2).1]
    constructor
    · rintro ⟨⟨p, k⟩, hp, l', h', hcl⟩
      obtain ⟨⟨b, i⟩, hb, l'', h'', hcl⟩ := ((Step2.collect_ok h').1 c).mp hcl
      rw [List.mk_mem_zipIdx_iff_getElem?] at hp hb
      exact ⟨p, k, b, i, l'', hp, hb, h'', hcl⟩
    · rintro ⟨p, k, b, i, l, hp, hb, hl, hcl⟩
      have hpm : (p, k) ∈ s.planes.zipIdx := by rw [List.mk_mem_zipIdx_iff_getElem?]; exact hp
      have hbm : (b, i) ∈ s.bodies.zipIdx := by rw [List.mk_mem_zipIdx_iff_getElem?]; exact hb
      obtain ⟨here, hh⟩ := (Step2.collect_ok h2).2 _ hpm
      exact ⟨(p, k), hpm, here, hh, ((Step2.collect_ok hh).1 c).mpr ⟨(b, i), hbm, l, hl, hcl⟩⟩
  rw [← hmem]
  constructor
  · rintro ((hb | hp) | hcy)
    · exact absurd (bodies_kind h1 hb).1 hc
    · exact hp
    · exfalso
      obtain ⟨⟨p, k⟩, _, l', h', hcl⟩ := ((Step2.collect_ok h3).1 c).mp hcy
      obtain ⟨⟨b, i⟩, _, l'', h'', hcl⟩ := ((Step2.collect_ok h').1 c).mp hcl
      exact hc (cylinder_kind h'' hcl).2.1
  · intro hp
    exact Or.inl (Or.inr hp)

/-- The contacts with cylinders are those found for one body and one cylinder. -/
theorem cylinder_part (h : s.computeActiveSet3 axis portals = .ok cs) (hc : c.cylinderPair ≠ none) :
    c ∈ cs ↔ ∃ p k b i l, s.cylinders[k]? = some p ∧ s.bodies[i]? = some b ∧ s.bodyCylinder k p i b = .ok l ∧ c ∈ l := by
  unfold computeActiveSet3 at h
  obtain ⟨lb, h1, h⟩ := Outcome.bind_ok_iff.mp h
  obtain ⟨lp, h2, h⟩ := Outcome.bind_ok_iff.mp h
  obtain ⟨lc, h3, h⟩ := Outcome.bind_ok_iff.mp h
  cases h
  unfold computeBodyPlaneActiveSetAllPairs at h2
  unfold computeBodyCylinderActiveSetAllPairs at h3
  rw [List.mem_append, List.mem_append]
  have hmem : c ∈ lc ↔ ∃ p k b i l, s.cylinders[k]? = some p ∧ s.bodies[i]? = some b ∧ s.bodyCylinder k p i b = .ok l ∧ c ∈ l := by
    rw [(Step2.collect_ok h3).1]
    constructor
    · rintro ⟨⟨p, k⟩, hp, l', h', hcl⟩
      obtain ⟨⟨b, i⟩, hb, l'', h'', hcl⟩ := ((Step2.collect_ok h').1 c).mp hcl
      rw [List.mk_mem_zipIdx_iff_getElem?] at hp hb
      exact ⟨p, k, b, i, l'', hp, hb, h'', hcl⟩
    · rintro ⟨p, k, b, i, l, hp, hb, hl, hcl⟩
      have hpm : (p, k) ∈ s.cylinders.zipIdx := by rw [List.mk_mem_zipIdx_iff_getElem?]; exact hp
      have hbm : (b, i) ∈ s.bodies.zipIdx := by rw [List.mk_mem_zipIdx_iff_getElem?]; exact hb
      obtain ⟨here, hh⟩ := (Step2.collect_ok h3).2 _ hpm
      exact ⟨(p, k), hpm, here, hh, ((Step2.collect_ok hh).1 c).mpr ⟨(b, i), hbm, l, hl, hcl⟩⟩
  rw [← hmem]
  constructor
  · rintro ((hb | hp) | hcy)
    · exact absurd (bodies_kind h1 hb).2 hc
    · exfalso
      obtain ⟨⟨p, k⟩, _, l', h', hcl⟩ := ((Step2.collect_ok h2).1 c).mp hp
      obtain ⟨⟨b, i⟩, _, l'', h'', hcl⟩ := ((Step2.collect_ok h').1 c).mp hcl
      exact hc (plane_kind h'' hcl).2.2
    · exact hcy
  · intro hp
    exact Or.inr hp

/-! ## C61: contacts between bodies -/

theorem overlaps_ok3 (hne : s.bodies ≠ []) (hv : ∀ B ∈ s.endBoxes, B.Valid) (hsp : Spread s.endBoxes 1625) :
    ∃ pairs, getPotentialOverlaps s.endBoxes = .ok pairs ∧ IsOverlapSet s.endBoxes pairs :=
  C14_spread_partial s.endBoxes (by simpa [endBoxes] using hne) hv 1625 (by norm_num) (by norm_num) hsp

/-- The scene has no free staple next to a plane and no free box or staple next to a cylinder: the program exits on these, wherever they are. -/
def Step3.SupportedSurfaces (s : Step3) : Prop :=
  ∀ b ∈ s.bodies, b.fixed = false → (s.planes ≠ [] → ∀ st, b.geometry ≠ .staple st) ∧
    (s.cylinders ≠ [] → (∀ st, b.geometry ≠ .staple st) ∧ ∀ w, b.geometry ≠ .box w)

theorem surfaces_ok (hs : s.SupportedSurfaces) : (∃ l, s.computeBodyPlaneActiveSetAllPairs = .ok l) ∧ ∃ l, s.computeBodyCylinderActiveSetAllPairs = .ok l := by
  constructor
  · refine Step2.collect_spec _ _ ?_
    rintro ⟨p, k⟩ hp
    refine Step2.collect_spec _ _ ?_
    rintro ⟨b, i⟩ hb
    rw [List.mk_mem_zipIdx_iff_getElem?] at hp hb
    dsimp only
    unfold bodyPlane
    split
    · exact ⟨_, rfl⟩
    · rename_i hf
      obtain ⟨h1, _⟩ := hs b (List.mem_of_getElem? hb) (by simpa using hf)
      split
      · exact ⟨_, rfl⟩
      · exact ⟨_, rfl⟩
      · rename_i hg
        exact absurd hg (h1 (List.ne_nil_of_mem (List.mem_of_getElem? hp)) _)
      · exact ⟨_, rfl⟩
  · refine Step2.collect_spec _ _ ?_
    rintro ⟨p, k⟩ hp
    refine Step2.collect_spec _ _ ?_
    rintro ⟨b, i⟩ hb
    rw [List.mk_mem_zipIdx_iff_getElem?] at hp hb
    dsimp only
    unfold bodyCylinder
    split
    · exact ⟨_, rfl⟩
    · rename_i hf
      obtain ⟨_, h1⟩ := hs b (List.mem_of_getElem? hb) (by simpa using hf)
      obtain ⟨h1, h2⟩ := h1 (List.ne_nil_of_mem (List.mem_of_getElem? hp))
      split
      · exact ⟨_, rfl⟩
      · exact ⟨_, rfl⟩
      · rename_i hg; exact absurd hg (h2 _)
      · rename_i hg; exact absurd hg (h1 _)

/-- **C61** (partial). Without portals, for bodies with valid axis aligned boxes that are spread over at most 1625 average sizes, if bodies whose axis aligned boxes
meet are of the same kind and, if they are staples, have no point in common, and if no body is next to a surface that is not supported for it, the computation
succeeds. A pair of bodies that is in contact is not made of two scripted bodies, and the bodies touch at the end of the step; a pair that is not made of two
scripted bodies and that collides at the end of the step is in contact. Two spheres share at most one contact. Missing: scenes that are spread out further, and
portals. -/
theorem C61_exact_partial (hne : s.bodies ≠ []) (hs : ∀ b ∈ s.bodies, b.Sound) (hv : ∀ B ∈ s.endBoxes, B.Valid) (hsp : Spread s.endBoxes 1625)
    (hk : ∀ (i j : Nat) a b, i < j → s.bodies[i]? = some a → s.bodies[j]? = some b → ¬(a.fixed = true ∧ b.fixed = true) → BoxesMeet3 s.q1 i j a b →
      Supported3 s i j a b) (hsurf : s.SupportedSurfaces) :
    ∃ cs, s.computeActiveSet3 axis [] = .ok cs ∧ ∀ i j,
      ((i, j) ∈ cs.filterMap Contact3.pair → i < j ∧ ∃ a b, s.bodies[i]? = some a ∧ s.bodies[j]? = some b ∧
        ¬(a.fixed = true ∧ b.fixed = true) ∧ Touch3 s i j a b) ∧
      (∀ a b, i < j → s.bodies[i]? = some a → s.bodies[j]? = some b → ¬(a.fixed = true ∧ b.fixed = true) → Collide3 s i j a b →
        (i, j) ∈ cs.filterMap Contact3.pair) ∧
      ∀ a r, s.bodies[i]? = some a → a.geometry = .sphere r → (cs.filterMap Contact3.pair).count (i, j) ≤ 1 := by
  obtain ⟨pairs, hp, hnd, hset⟩ := overlaps_ok3 hne hv hsp
  have hbody : ∀ i j, (i, j) ∈ pairs → ∃ a b, i < j ∧ s.bodies[i]? = some a ∧ s.bodies[j]? = some b ∧ BoxesMeet3 s.q1 i j a b := by
    intro i j hij
    obtain ⟨hlt, A, B, hA, hB, hov⟩ := (hset i j).mp hij
    have hvA := hv A (List.mem_of_getElem? hA)
    have hvB := hv B (List.mem_of_getElem? hB)
    rw [endBoxes_get] at hA hB
    obtain ⟨a, ha, rfl⟩ := Option.map_eq_some_iff.mp hA
    obtain ⟨b, hb, rfl⟩ := Option.map_eq_some_iff.mp hB
    exact ⟨a, b, hlt, ha, hb, boxesMeet_of_overlap hvA hvB hov⟩
  have hspec : ∀ p ∈ pairs, ∃ a b l, p.1 < p.2 ∧ s.bodies[p.1]? = some a ∧ s.bodies[p.2]? = some b ∧ s.dispatchNarrowPhaseCollision p = .ok l ∧
      (∀ c ∈ l, c.pair = some p ∧ c.planePair = none ∧ c.cylinderPair = none) ∧
      (l ≠ [] → ¬(a.fixed = true ∧ b.fixed = true) ∧ Touch3 s p.1 p.2 a b) ∧
      (¬(a.fixed = true ∧ b.fixed = true) → Collide3 s p.1 p.2 a b → l ≠ []) ∧
      ((∃ r, a.geometry = .sphere r) → l.length ≤ 1) := by
    rintro ⟨i, j⟩ hij
    obtain ⟨a, b, hlt, ha, hb, hbox⟩ := hbody i j hij
    obtain ⟨l, h1, h2, h3, h3', h4⟩ := dispatch_spec3 hlt ha hb (hs a (List.mem_of_getElem? ha)) (hs b (List.mem_of_getElem? hb))
      (fun hf => hk i j a b hlt ha hb hf hbox) hbox
    exact ⟨a, b, l, hlt, ha, hb, h1, h2, h3, h3', h4⟩
  obtain ⟨out, hout⟩ := Step2.collect_spec (s.dispatchNarrowPhaseCollision) pairs fun p hpp => by
    obtain ⟨_, _, l, _, _, _, h, _⟩ := hspec p hpp
    exact ⟨l, h⟩
  have hgrid : s.computeActiveSetBodyBodySpatialGrid axis [] = .ok out := by
    rw [bodyBody_direct hp, hout]
    intro p hpp
    obtain ⟨a, b, _, _, ha, hb, _⟩ := hspec p hpp
    exact ⟨(List.getElem?_eq_some_iff.mp ha).1, (List.getElem?_eq_some_iff.mp hb).1⟩
  obtain ⟨⟨lp, hlp⟩, lc, hlc⟩ := surfaces_ok hsurf
  have hplane : lp.filterMap Contact3.pair = [] := by
    rw [List.filterMap_eq_nil_iff]
    intro c hc
    unfold computeBodyPlaneActiveSetAllPairs at hlp
    obtain ⟨⟨p, k⟩, _, l', h', hcl⟩ := ((Step2.collect_ok hlp).1 c).mp hc
    obtain ⟨⟨b, i⟩, _, l'', h'', hcl⟩ := ((Step2.collect_ok h').1 c).mp hcl
    exact (plane_kind h'' hcl).1
  have hcyl : lc.filterMap Contact3.pair = [] := by
    rw [List.filterMap_eq_nil_iff]
    intro c hc
    unfold computeBodyCylinderActiveSetAllPairs at hlc
    obtain ⟨⟨p, k⟩, _, l', h', hcl⟩ := ((Step2.collect_ok hlc).1 c).mp hc
    obtain ⟨⟨b, i⟩, _, l'', h'', hcl⟩ := ((Step2.collect_ok h').1 c).mp hcl
    exact (cylinder_kind h'' hcl).1
  have hcount := Step2.collect_count (s.dispatchNarrowPhaseCollision) Contact3.pair pairs out hnd hout fun p hpp here hh c hc => by
    obtain ⟨_, _, l, _, _, _, h, h2, _⟩ := hspec p hpp
    rw [hh] at h
    cases h
    exact (h2 c hc).1
  refine ⟨out ++ lp ++ lc, ?_, fun i j => ?_⟩
  · simp [computeActiveSet3, hgrid, hlp, hlc, Outcome.bind]
  rw [List.filterMap_append, List.filterMap_append, hplane, hcyl, List.append_nil, List.append_nil]
  by_cases hij : (i, j) ∈ pairs
  · obtain ⟨a, b, l, hlt, ha, hb, h1, h2, h3, h3', h4⟩ := hspec _ hij
    have hc := (hcount (i, j)).2 l hij h1
    refine ⟨?_, ?_, fun a' r ha' hr => ?_⟩
    · rw [← List.count_pos_iff, hc]
      intro hpos
      exact ⟨hlt, a, b, ha, hb, h3 (List.ne_nil_of_length_pos hpos)⟩
    · intro a' b' _ ha' hb' hf hcol
      rw [ha] at ha'
      rw [hb] at hb'
      cases ha'
      cases hb'
      rw [← List.count_pos_iff, hc]
      exact List.length_pos_iff.mpr (h3' hf hcol)
    · rw [ha] at ha'
      cases ha'
      rw [hc]
      exact h4 ⟨r, hr⟩
  · have hc := (hcount (i, j)).1 hij
    refine ⟨?_, ?_, fun _ _ _ _ => by omega⟩
    · rw [← List.count_pos_iff, hc]
      intro h
      omega
    · intro a b hlt ha hb _ hcol
      exfalso
      apply hij
      rw [hset]
      exact ⟨hlt, _, _, by rw [endBoxes_get, ha]; rfl, by rw [endBoxes_get, hb]; rfl,
        overlap_boxesMeet (collide3_boxesMeet (hs a (List.mem_of_getElem? ha)) (hs b (List.mem_of_getElem? hb)) hcol)⟩

theorem exits_pair (hne : s.bodies ≠ []) (hv : ∀ B ∈ s.endBoxes, B.Valid) (hsp : Spread s.endBoxes 1625) {i j : Nat}
    {a b : SceneBody3} (hij : i < j) (ha : s.bodies[i]? = some a) (hb : s.bodies[j]? = some b) (hbox : BoxesMeet3 s.q1 i j a b)
    (hexit : s.dispatchNarrowPhaseCollision (i, j) = .exit) : s.computeActiveSet3 axis [] = .exit := by
  obtain ⟨pairs, hp, hnd, hset⟩ := overlaps_ok3 hne hv hsp
  have hbody : ∀ i j, (i, j) ∈ pairs → ∃ a b, i < j ∧ s.bodies[i]? = some a ∧ s.bodies[j]? = some b ∧ BoxesMeet3 s.q1 i j a b := by
    intro i j hij
    obtain ⟨hlt, A, B, hA, hB, hov⟩ := (hset i j).mp hij
    have hvA := hv A (List.mem_of_getElem? hA)
    have hvB := hv B (List.mem_of_getElem? hB)
    rw [endBoxes_get] at hA hB
    obtain ⟨a, ha, rfl⟩ := Option.map_eq_some_iff.mp hA
    obtain ⟨b, hb, rfl⟩ := Option.map_eq_some_iff.mp hB
    exact ⟨a, b, hlt, ha, hb, boxesMeet_of_overlap hvA hvB hov⟩
  have hex : Step2.collect (s.dispatchNarrowPhaseCollision) pairs = .exit := by
    refine Step2.collect_exit _ _ (fun p hpp => ?_) ⟨(i, j), (hset i j).mpr ⟨hij, _, _, by rw [endBoxes_get, ha]; rfl, by rw [endBoxes_get, hb]; rfl,
      overlap_boxesMeet hbox⟩, hexit⟩
    obtain ⟨i', j'⟩ := p
    obtain ⟨a', b', hlt, ha', hb', hbox'⟩ := hbody i' j' hpp
    exact dispatch_ok_or_exit ha' hb'
  have hgrid : s.computeActiveSetBodyBodySpatialGrid axis [] = .exit := by
    rw [bodyBody_direct hp, hex]
    intro p hpp
    obtain ⟨a', b', _, ha', hb', _⟩ := hbody p.1 p.2 hpp
    exact ⟨(List.getElem?_eq_some_iff.mp ha').1, (List.getElem?_eq_some_iff.mp hb').1⟩
  simp [computeActiveSet3, hgrid, Outcome.bind]

/-- C61, finding: two bodies of different kinds whose boxes overlap make the program exit, whether or not the bodies touch. -/
theorem C61_exits (hne : s.bodies ≠ []) (hv : ∀ B ∈ s.endBoxes, B.Valid) (hsp : Spread s.endBoxes 1625) {i j : Nat}
    {a b : SceneBody3} (hij : i < j) (ha : s.bodies[i]? = some a) (hb : s.bodies[j]? = some b) (hf : ¬(a.fixed = true ∧ b.fixed = true))
    (hbox : BoxesMeet3 s.q1 i j a b) (hk : ¬SameKind3 a b) : s.computeActiveSet3 axis [] = .exit :=
  exits_pair hne hv hsp hij ha hb hbox (dispatch_exit3 ha hb hf hk)

/-- C61, finding: two staples that are not both scripted, whose axis aligned boxes meet, and that have a point in common make the program exit. -/
theorem C61_staples_exit (hne : s.bodies ≠ []) (hv : ∀ B ∈ s.endBoxes, B.Valid) (hsp : Spread s.endBoxes 1625) {i j : Nat}
    {a b : SceneBody3} (hij : i < j) (ha : s.bodies[i]? = some a) (hb : s.bodies[j]? = some b) (hf : ¬(a.fixed = true ∧ b.fixed = true))
    (hbox : BoxesMeet3 s.q1 i j a b) {sa sb : Staple} (hga : a.geometry = .staple sa) (hgb : b.geometry = .staple sb)
    (hR0 : (s.q1.R i).transpose * s.q1.R i = 1) (hR1 : (s.q1.R j).transpose * s.q1.R j = 1) (hr0 : 0 ≤ sa.r) (hr1 : 0 ≤ sb.r)
    (hw0 : 1 / 10 ^ 8 < sa.w ^ 2) (hl0 : 1 / 10 ^ 8 < sa.l ^ 2) (hw1 : 1 / 10 ^ 8 < sb.w ^ 2) (hl1 : 1 / 10 ^ 8 < sb.l ^ 2) {z : Vec3}
    (hza : z ∈ a.pointsAt s.q1 i) (hzb : z ∈ b.pointsAt s.q1 j) : s.computeActiveSet3 axis [] = .exit := by
  unfold SceneBody3.pointsAt PosedBody3D.points at hza hzb
  rw [hga] at hza
  rw [hgb] at hzb
  exact exits_pair hne hv hsp hij ha hb hbox (dispatch_staples ha hb hf hga hgb ((C74_staples _ _ _ _ _ _ hR0 hR1 hr0 hr1 hw0 hl0 hw1 hl1).mpr ⟨z, hza, hzb⟩)
    ((C74_staples _ _ _ _ _ _ hR1 hR0 hr1 hr0 hw1 hl1 hw0 hl0).mpr ⟨z, hzb, hza⟩))

/-- C61, finding: a free staple in a scene with a plane, and a free box or staple in a scene with a cylinder, prevent a step, wherever they are. -/
theorem C61_unsupported (hs : ¬s.SupportedSurfaces) : ∀ cs, s.computeActiveSet3 axis portals ≠ .ok cs := by
  intro cs h
  apply hs
  unfold computeActiveSet3 at h
  obtain ⟨lb, _, h⟩ := Outcome.bind_ok_iff.mp h
  obtain ⟨lp, h2, h⟩ := Outcome.bind_ok_iff.mp h
  obtain ⟨lc, h3, h⟩ := Outcome.bind_ok_iff.mp h
  unfold computeBodyPlaneActiveSetAllPairs at h2
  unfold computeBodyCylinderActiveSetAllPairs at h3
  intro b hb hf
  obtain ⟨i, hi⟩ := List.getElem?_of_mem hb
  have hbm : (b, i) ∈ s.bodies.zipIdx := by rw [List.mk_mem_zipIdx_iff_getElem?]; exact hi
  have hplane : s.planes ≠ [] → ∃ p k l, s.bodyPlane k p i b = .ok l := by
    intro hne
    obtain ⟨p, hp⟩ := List.exists_mem_of_ne_nil _ hne
    obtain ⟨k, hk⟩ := List.getElem?_of_mem hp
    obtain ⟨here, hh⟩ := (Step2.collect_ok h2).2 (p, k) (by rw [List.mk_mem_zipIdx_iff_getElem?]; exact hk)
    obtain ⟨l, hl⟩ := (Step2.collect_ok hh).2 (b, i) hbm
    exact ⟨p, k, l, hl⟩
  have hcyl : s.cylinders ≠ [] → ∃ p k l, s.bodyCylinder k p i b = .ok l := by
    intro hne
    obtain ⟨p, hp⟩ := List.exists_mem_of_ne_nil _ hne
    obtain ⟨k, hk⟩ := List.getElem?_of_mem hp
    obtain ⟨here, hh⟩ := (Step2.collect_ok h3).2 (p, k) (by rw [List.mk_mem_zipIdx_iff_getElem?]; exact hk)
    obtain ⟨l, hl⟩ := (Step2.collect_ok hh).2 (b, i) hbm
    exact ⟨p, k, l, hl⟩
  refine ⟨fun hne st hg => ?_, fun hne => ⟨fun st hg => ?_, fun w hg => ?_⟩⟩
  · obtain ⟨p, k, l, hl⟩ := hplane hne
    simp [bodyPlane, hf, hg] at hl
  · obtain ⟨p, k, l, hl⟩ := hcyl hne
    simp [bodyCylinder, hf, hg] at hl
  · obtain ⟨p, k, l, hl⟩ := hcyl hne
    simp [bodyCylinder, hf, hg] at hl

/-- A contact between two bodies that is not through a portal comes from the narrow phase. -/
theorem direct_from (h : s.computeActiveSet3 axis portals = .ok cs) : ∀ c ∈ cs, c.Direct → c.pair ≠ none → ∃ i j a b l, s.bodies[i]? = some a ∧
    s.bodies[j]? = some b ∧ s.dispatchOrdered i j a b = .ok l ∧ c ∈ l := by
  intro c hc hd hpr
  unfold computeActiveSet3 at h
  obtain ⟨lb, h1, h⟩ := Outcome.bind_ok_iff.mp h
  obtain ⟨lp, h2, h⟩ := Outcome.bind_ok_iff.mp h
  obtain ⟨lc, h3, h⟩ := Outcome.bind_ok_iff.mp h
  cases h
  unfold computeBodyPlaneActiveSetAllPairs at h2
  unfold computeBodyCylinderActiveSetAllPairs at h3
  rw [List.mem_append, List.mem_append] at hc
  rcases hc with (hc | hc) | hc
  · unfold computeActiveSetBodyBodySpatialGrid at h1
    dsimp only at h1
    obtain ⟨pairs, _, h1⟩ := Outcome.bind_ok_iff.mp h1
    obtain ⟨r, hr, h1⟩ := Outcome.bind_ok_iff.mp h1
    obtain ⟨tl, ht, h1⟩ := Outcome.bind_ok_iff.mp h1
    cases h1
    rcases List.mem_append.mp hc with hc | hc
    · rcases ((classifyAll_ok hr).1 c).mp hc with hc | ⟨p, _, r', h4, h5⟩
      · cases hc
      · rcases (classify3_parts h4).1 with h6 | h6
        · rw [h6] at h5; cases h5
        · unfold dispatchNarrowPhaseCollision at h6
          split at h6
          · rename_i a b ha hb
            split at h6
            · injection h6 with h7; rw [← h7] at h5; cases h5
            · split at h6
              · exact ⟨_, _, b, a, _, hb, ha, h6, h5⟩
              · exact ⟨_, _, a, b, _, ha, hb, h6, h5⟩
          · cases h6
    · exfalso
      obtain ⟨t, _, here, h2, h3⟩ := ((Step2.collect_ok ht).1 c).mp hc
      unfold generateTeleportedCollision at h2
      split at h2
      · split at h2
        · dsimp only at h2
          split at h2
          · cases h2; rw [List.mem_singleton] at h3; subst h3; exact hd
          · split at h2
            · cases h2; rw [List.mem_singleton] at h3; subst h3; exact hd
            · split at h2 <;> cases h2
              rw [List.mem_singleton] at h3; subst h3; exact hd
        · cases h2
      · cases h2
  · exfalso
    obtain ⟨⟨p, k⟩, _, l', h', hcl⟩ := ((Step2.collect_ok h2).1 c).mp hc
    obtain ⟨⟨b, i⟩, _, l'', h'', hcl⟩ := ((Step2.collect_ok h').1 c).mp hcl
    exact hpr (plane_kind h'' hcl).1
  · exfalso
    obtain ⟨⟨p, k⟩, _, l', h', hcl⟩ := ((Step2.collect_ok h3).1 c).mp hc
    obtain ⟨⟨b, i⟩, _, l'', h'', hcl⟩ := ((Step2.collect_ok h').1 c).mp hcl
    exact hpr (cylinder_kind h'' hcl).1

theorem ordered_index {i j : Nat} {a b : SceneBody3} {l : List Contact3} (h : s.dispatchOrdered i j a b = .ok l) : ∀ c ∈ l, c.bodyIndices = .ok (i, some j) := by
  intro c hc
  unfold dispatchOrdered at h
  split at h
  · cases h
    unfold boxBoxNarrowPhaseCollision at hc
    dsimp only at hc
    split at hc <;> obtain ⟨p, _, rfl⟩ := List.mem_map.mp hc <;> rfl
  · cases h
    unfold sphereSphereNarrowPhaseCollision at hc
    dsimp only at hc
    split at hc
    · split at hc <;> rw [List.mem_singleton] at hc <;> subst hc <;> rfl
    · cases hc
  · unfold stapleStapleNarrowPhaseCollision at h
    split at h <;> cases h
    cases hc
  · cases h
    unfold meshMeshNarrowPhaseCollision at hc
    dsimp only at hc
    split at hc <;> obtain ⟨p, _, rfl⟩ := List.mem_map.mp hc <;> rfl
  · cases h

/-- **C61** Two meshes: the contacts of two free meshes, and of a free and a scripted one, are at the surface samples of one that are inside the other at
the end of the step; the normal is the one of the other mesh, turned such that it points away from the second body. -/
theorem C61_mesh_contacts (h : s.computeActiveSet3 axis portals = .ok cs) (hR : ∀ k, s.q1.R k * (s.q1.R k).transpose = 1) :
    (∀ i j n r0 r1 a b va, .bodyBody i j n r0 r1 ∈ cs → s.bodies[i]? = some a → s.bodies[j]? = some b → a.geometry = .mesh va →
      ∃ z, (SampleInside3 s.q1 i j a b z n ∨ SampleInside3 s.q1 j i b a z (-n)) ∧ r0 = z - s.q0.x i ∧ r1 = z - s.q0.x j) ∧
    ∀ i k n r a b va, .kinematicBody i k n r ∈ cs → s.bodies[i]? = some a → s.bodies[k]? = some b → a.geometry = .mesh va →
      ∃ z, (SampleInside3 s.q1 i k a b z n ∨ SampleInside3 s.q1 k i b a z (-n)) ∧ r = z - s.q0.x i := by
  have hord : ∀ {i j : Nat} {a b : SceneBody3} {va : List Vec3} {l : List Contact3}, s.dispatchOrdered i j a b = .ok l → a.geometry = .mesh va →
      ∀ c ∈ l, ∃ z n, (SampleInside3 s.q1 i j a b z n ∨ SampleInside3 s.q1 j i b a z (-n)) ∧
        (c = .mkBodyBody i j z n s.q0 ∨ c = .mkKinematicBody i j z n s.q0) := by
    intro i j a b va l hl hg c hc
    unfold dispatchOrdered at hl
    rw [hg] at hl
    split at hl
    · rename_i hx _; cases hx
    · rename_i hx _; cases hx
    · rename_i hx _; cases hx
    · cases hl
      have hin : ∀ e ∈ meshMeshActiveSet (s.q1.x i) (s.q1.R i) a.mesh (s.q1.x j) (s.q1.R j) b.mesh,
          SampleInside3 s.q1 i j a b e.1 e.2 ∨ SampleInside3 s.q1 j i b a e.1 (-e.2) := by
        rintro ⟨z, n⟩ he
        unfold meshMeshActiveSet at he
        rcases List.mem_append.mp he with he | he
        · exact Or.inl ((samplesInside_eq a b (hR j) z n).mp he)
        · obtain ⟨⟨z', n'⟩, h', he⟩ := List.mem_map.mp he
          cases he
          right
          rw [neg_neg]
          exact (samplesInside_eq b a (hR i) z n').mp h'
      unfold meshMeshNarrowPhaseCollision at hc
      dsimp only at hc
      split at hc
      · obtain ⟨⟨z, n⟩, he, rfl⟩ := List.mem_map.mp hc
        exact ⟨z, n, hin _ he, Or.inl rfl⟩
      · obtain ⟨⟨z, n⟩, he, rfl⟩ := List.mem_map.mp hc
        exact ⟨z, n, hin _ he, Or.inr rfl⟩
    · cases hl
  have hfrom := direct_from h
  constructor
  · intro i j n r0 r1 a b va hc ha hb hg
    obtain ⟨i', j', a', b', l, ha', hb', hl, hcl⟩ := hfrom _ hc trivial (by simp [Contact3.pair])
    have hij := ordered_index hl _ hcl
    cases hij
    rw [ha] at ha'
    rw [hb] at hb'
    cases ha'
    cases hb'
    obtain ⟨z, m, hin, he | he⟩ := hord hl hg _ hcl
    · cases he
      exact ⟨z, hin, rfl, rfl⟩
    · cases he
  · intro i k n r a b va hc ha hb hg
    obtain ⟨i', j', a', b', l, ha', hb', hl, hcl⟩ := hfrom _ hc trivial (by simp [Contact3.pair])
    have hij := ordered_index hl _ hcl
    cases hij
    rw [ha] at ha'
    rw [hb] at hb'
    cases ha'
    cases hb'
    obtain ⟨z, m, hin, he | he⟩ := hord hl hg _ hcl
    · cases he
    · cases he
      exact ⟨z, hin, rfl⟩

/-- **C61** Two boxes with positive widths, with or without portals: the normal of a contact of two free boxes, and of a free and a scripted one, has length one
and points towards the first box. At the end of the step the boxes overlap along it by a distance `D`: moved along it by more, the first box is clear of the second,
and no motion that is shorter by a factor of 1.05 clears it. -/
theorem C61_box_contacts (h : s.computeActiveSet3 axis portals = .ok cs) {i j : Nat} {a b : SceneBody3} {wa wb : Vec3} (ha : s.bodies[i]? = some a)
    (hb : s.bodies[j]? = some b) (hga : a.geometry = .box wa) (hgb : b.geometry = .box wb) (hwa : ∀ t, 0 < wa t) (hwb : ∀ t, 0 < wb t)
    (hRi : (s.q1.R i).transpose * s.q1.R i = 1) (hRj : (s.q1.R j).transpose * s.q1.R j = 1) {n : Vec3}
    (hc : (∃ r0 r1, .bodyBody i j n r0 r1 ∈ cs) ∨ ∃ r, .kinematicBody i j n r ∈ cs) :
    n ⬝ᵥ n = 1 ∧ 0 ≤ n ⬝ᵥ (s.q1.x i - s.q1.x j) ∧ ∃ D, IsOverlap3 n (a.pointsAt s.q1 i) (b.pointsAt s.q1 j) D ∧ 0 ≤ D ∧
      (∀ t, D < t → moved3 (t • n) (a.pointsAt s.q1 i) ∩ b.pointsAt s.q1 j = ∅) ∧
      ∀ t : Vec3, t ⬝ᵥ t ≤ (D / (105 / 100)) ^ 2 → (moved3 t (a.pointsAt s.q1 i) ∩ b.pointsAt s.q1 j).Nonempty := by
  have hpa : a.pointsAt s.q1 i = boxSet3 (s.q1.x i) (s.q1.R i) wa := by simp [SceneBody3.pointsAt, PosedBody3D.points, hga]
  have hpb : b.pointsAt s.q1 j = boxSet3 (s.q1.x j) (s.q1.R j) wb := by simp [SceneBody3.pointsAt, PosedBody3D.points, hgb]
  rw [hpa, hpb]
  have hmain : ∀ c ∈ cs, c.Direct → c.pair ≠ none → c.bodyIndices = .ok (i, some j) → ∃ p,
      p ∈ (boxBoxIsActive3 (s.q1.x i) (s.q1.R i) wa (s.q1.x j) (s.q1.R j) wb 0).2 ∧
      (c = .mkBodyBody i j p (boxBoxIsActive3 (s.q1.x i) (s.q1.R i) wa (s.q1.x j) (s.q1.R j) wb 0).1 s.q0 ∨
        c = .mkKinematicBody i j p (boxBoxIsActive3 (s.q1.x i) (s.q1.R i) wa (s.q1.x j) (s.q1.R j) wb 0).1 s.q0) := by
    intro c hc hd hp hidx
    obtain ⟨i', j', a', b', l, ha', hb', hl, hcl⟩ := direct_from h c hc hd hp
    have hij := ordered_index hl _ hcl
    rw [hidx] at hij
    cases hij
    rw [ha] at ha'
    rw [hb] at hb'
    cases ha'
    cases hb'
    unfold dispatchOrdered at hl
    rw [hga, hgb] at hl
    cases hl
    unfold boxBoxNarrowPhaseCollision at hcl
    dsimp only at hcl
    split at hcl
    · obtain ⟨p, hpm, rfl⟩ := List.mem_map.mp hcl
      exact ⟨p, hpm, Or.inl rfl⟩
    · obtain ⟨p, hpm, rfl⟩ := List.mem_map.mp hcl
      exact ⟨p, hpm, Or.inr rfl⟩
  have hact : (boxBoxIsActive3 (s.q1.x i) (s.q1.R i) wa (s.q1.x j) (s.q1.R j) wb 0).1 = n ∧
      (boxBoxIsActive3 (s.q1.x i) (s.q1.R i) wa (s.q1.x j) (s.q1.R j) wb 0).2 ≠ [] := by
    rcases hc with ⟨r0, r1, hc⟩ | ⟨r, hc⟩
    · obtain ⟨p, hp, he | he⟩ := hmain _ hc trivial (by simp [Contact3.pair]) rfl
      · injection he with _ _ h3
        exact ⟨h3.symm, List.ne_nil_of_mem hp⟩
      · cases he
    · obtain ⟨p, hp, he | he⟩ := hmain _ hc trivial (by simp [Contact3.pair]) rfl
      · cases he
      · injection he with _ _ h3
        exact ⟨h3.symm, List.ne_nil_of_mem hp⟩
  exact C73_normal _ _ _ _ 0 _ _ hRi hRj hwa hwb (Prod.ext hact.1 rfl) hact.2

/-! ## C61: contacts with planes and cylinders -/

/-- **C61** Contacts with planes, with or without portals: a body is in contact with a plane exactly if it is not scripted and has a point on the solid
side of the plane at the end of the step. (There are no free staples if there is a plane, `C61_unsupported`.) -/
theorem C61_planes (h : s.computeActiveSet3 axis portals = .ok cs) (hs : ∀ b ∈ s.bodies, b.Sound) (hn : ∀ p ∈ s.planes, inner3 p.n p.n = 1) (i k : Nat) :
    (i, k) ∈ cs.filterMap Contact3.planePair ↔ ∃ b p, s.bodies[i]? = some b ∧ s.planes[k]? = some p ∧ b.fixed = false ∧
      ∃ z ∈ b.pointsAt s.q1 i, inner3 p.n (z - p.x) ≤ 0 := by
  have hone : ∀ (b : SceneBody3) (p : Plane3) (i k : Nat) (l : List Contact3), s.bodies[i]? = some b → s.planes[k]? = some p → s.bodyPlane k p i b = .ok l →
      (l ≠ [] ↔ b.fixed = false ∧ ∃ z ∈ b.pointsAt s.q1 i, inner3 p.n (z - p.x) ≤ 0) := by
    intro b p i k l hb hp hl
    have hsb := hs b (List.mem_of_getElem? hb)
    have hnp := hn p (List.mem_of_getElem? hp)
    obtain ⟨g, m, f⟩ := b
    unfold bodyPlane at hl
    cases f with
    | true =>
      rw [if_pos rfl] at hl
      cases hl
      simp
    | false =>
      rw [if_neg (by simp)] at hl
      simp only [true_and]
      cases g with
      | box w =>
        cases hl
        have hb := box_below3 (cm := s.q1.x i) (R := s.q1.R i) (n := p.n) (px := p.x) (show ∀ i, 0 ≤ w i from hsb)
        refine Iff.trans ?_ hb.symm
        rw [ne_eq, List.map_eq_nil_iff, List.filter_eq_nil_iff]
        push Not
        constructor
        · rintro ⟨corner, _, hc⟩
          refine ⟨Contact3.boxCorner w corner, corner_abs w hsb corner, ?_⟩
          rw [decide_eq_true_eq, dot_inner, add_comm] at hc
          exact hc
        · rintro ⟨a, ha, hc⟩
          obtain ⟨corner, hlt, rfl⟩ := corner_signs w a ha
          refine ⟨corner, List.mem_range.mpr hlt, ?_⟩
          rw [decide_eq_true_eq, dot_inner, add_comm]
          exact hc
      | sphere r =>
        cases hl
        have hb := ball_below (x := s.q1.x i) (n := p.n) (px := p.x) (show 0 < r from hsb) hnp
        refine Iff.trans ?_ hb.symm
        split <;> simp_all
      | staple st => cases hl
      | mesh verts =>
        cases hl
        have hb := mesh_outside (cm := s.q1.x i) (R := s.q1.R i) (show convexHull ℝ {v | v ∈ m.hull} = convexHull ℝ {v | v ∈ verts} from hsb)
          (convex_above p.n p.x)
        simp only [Set.mem_ofPred_eq, not_lt] at hb
        refine Iff.trans ?_ hb.symm
        rw [ne_eq, List.map_eq_nil_iff, List.filter_eq_nil_iff]
        push Not
        refine exists_congr fun v => and_congr_right fun _ => ?_
        rw [decide_eq_true_eq, dot_inner, add_comm]
  rw [List.mem_filterMap]
  constructor
  · rintro ⟨c, hc, hcp⟩
    obtain ⟨p, k', b, i', l, hp, hb, hl, hcl⟩ := (plane_part h (by simp [hcp])).mp hc
    rw [(plane_kind hl hcl).2.1] at hcp
    cases hcp
    exact ⟨b, p, hb, hp, (hone b p i k l hb hp hl).mp (List.ne_nil_of_mem hcl)⟩
  · rintro ⟨b, p, hb, hp, hz⟩
    have hall : ∃ l, s.bodyPlane k p i b = .ok l := by
      unfold computeActiveSet3 at h
      obtain ⟨lb, _, h⟩ := Outcome.bind_ok_iff.mp h
      obtain ⟨lp, h2, h⟩ := Outcome.bind_ok_iff.mp h
      unfold computeBodyPlaneActiveSetAllPairs at h2
      obtain ⟨here, hh⟩ := (Step2.collect_ok h2).2 (p, k) (by rw [List.mk_mem_zipIdx_iff_getElem?]; exact hp)
      exact (Step2.collect_ok hh).2 (b, i) (by rw [List.mk_mem_zipIdx_iff_getElem?]; exact hb)
    obtain ⟨l, hl⟩ := hall
    obtain ⟨c, hcl⟩ := List.exists_mem_of_ne_nil _ ((hone b p i k l hb hp hl).mpr hz)
    have hpp := (plane_kind hl hcl).2.1
    exact ⟨c, (plane_part h (by simp [hpp])).mpr ⟨p, k, b, i, l, hp, hb, hl, hcl⟩, hpp⟩

/-- **C61** The contacts with a plane are: for a sphere, one; for a box, its corners, and for a mesh the vertices of its hull, that are on the solid side of the
plane at the end of the step. The arms are those of the start of the step, and the normal is the one of the plane. -/
theorem C61_plane_points (h : s.computeActiveSet3 axis portals = .ok cs) (hs : ∀ b ∈ s.bodies, b.Sound) (i k : Nat) :
    (∀ r p, .planeSphere i r p k ∈ cs ↔ s.planes[k]? = some p ∧ ∃ b, s.bodies[i]? = some b ∧ b.fixed = false ∧ b.geometry = .sphere r ∧
      inner3 p.n (s.q1.x i - p.x) ≤ r) ∧
    (∀ n arm, .planeBox i n arm k ∈ cs ↔ ∃ p b w, s.planes[k]? = some p ∧ n = p.n ∧ s.bodies[i]? = some b ∧ b.fixed = false ∧ b.geometry = .box w ∧
      ∃ a : Vec3, (∀ t, |a t| = w t) ∧ arm = s.q0.R i *ᵥ a ∧ inner3 p.n (s.q1.x i + s.q1.R i *ᵥ a - p.x) ≤ 0) ∧
    ∀ n arm, .planeBody i n arm k ∈ cs ↔ ∃ p b verts, s.planes[k]? = some p ∧ n = p.n ∧ s.bodies[i]? = some b ∧ b.fixed = false ∧
      b.geometry = .mesh verts ∧ ∃ v ∈ b.mesh.hull, arm = s.q0.R i *ᵥ v ∧ inner3 p.n (s.q1.x i + s.q1.R i *ᵥ v - p.x) ≤ 0 := by
  have hall : ∀ b p, s.bodies[i]? = some b → s.planes[k]? = some p → ∃ l, s.bodyPlane k p i b = .ok l := by
    intro b p hb hp
    unfold computeActiveSet3 at h
    obtain ⟨lb, _, h⟩ := Outcome.bind_ok_iff.mp h
    obtain ⟨lp, h2, h⟩ := Outcome.bind_ok_iff.mp h
    unfold computeBodyPlaneActiveSetAllPairs at h2
    obtain ⟨here, hh⟩ := (Step2.collect_ok h2).2 (p, k) (by rw [List.mk_mem_zipIdx_iff_getElem?]; exact hp)
    exact (Step2.collect_ok hh).2 (b, i) (by rw [List.mk_mem_zipIdx_iff_getElem?]; exact hb)
  refine ⟨fun r p => ?_, fun n arm => ?_, fun n arm => ?_⟩
  · rw [plane_part h (by simp [Contact3.planePair])]
    constructor
    · rintro ⟨p', k', b, i', l, hp, hb, hl, hcl⟩
      have hik := (plane_kind hl hcl).2.1
      cases hik
      unfold bodyPlane at hl
      split at hl
      · cases hl; cases hcl
      · rename_i hf
        split at hl
        · cases hl
          obtain ⟨e, _, he⟩ := List.mem_map.mp hcl
          cases he
        · rename_i hg
          cases hl
          split at hcl
          · rename_i hle
            rw [List.mem_singleton] at hcl
            cases hcl
            rw [dot_inner] at hle
            exact ⟨hp, b, hb, by simpa using hf, hg, hle⟩
          · cases hcl
        · cases hl
        · cases hl
          obtain ⟨e, _, he⟩ := List.mem_map.mp hcl
          cases he
    · rintro ⟨hp, b, hb, hf, hg, hle⟩
      refine ⟨p, k, b, i, [.planeSphere i r p k], hp, hb, ?_, List.mem_singleton.mpr rfl⟩
      rw [← dot_inner] at hle
      unfold bodyPlane
      rw [if_neg (by simp [hf]), hg]
      dsimp only
      rw [if_pos hle]
  · rw [plane_part h (by simp [Contact3.planePair])]
    constructor
    · rintro ⟨p', k', b, i', l, hp, hb, hl, hcl⟩
      have hik := (plane_kind hl hcl).2.1
      cases hik
      have hsb := hs b (List.mem_of_getElem? hb)
      unfold bodyPlane at hl
      split at hl
      · cases hl; cases hcl
      · rename_i hf
        split at hl
        · rename_i w hg
          cases hl
          obtain ⟨e, he, hc⟩ := List.mem_map.mp hcl
          cases hc
          obtain ⟨_, he⟩ := List.mem_filter.mp he
          unfold SceneBody3.Sound at hsb
          rw [hg] at hsb
          rw [decide_eq_true_eq, dot_inner, add_comm (s.q1.R i *ᵥ _)] at he
          exact ⟨p', b, w, hp, rfl, hb, by simpa using hf, hg, _, corner_abs w hsb e, rfl, he⟩
        · cases hl
          split at hcl
          · rw [List.mem_singleton] at hcl
            cases hcl
          · cases hcl
        · cases hl
        · cases hl
          obtain ⟨e, _, he⟩ := List.mem_map.mp hcl
          cases he
    · rintro ⟨p, b, w, hp, rfl, hb, hf, hg, a, ha, rfl, hle⟩
      obtain ⟨l, hl⟩ := hall b p hb hp
      obtain ⟨corner, hlt, rfl⟩ := corner_signs w a ha
      refine ⟨p, k, b, i, l, hp, hb, hl, ?_⟩
      unfold bodyPlane at hl
      rw [if_neg (by simp [hf]), hg] at hl
      cases hl
      refine List.mem_map.mpr ⟨corner, List.mem_filter.mpr ⟨List.mem_range.mpr hlt, ?_⟩, rfl⟩
      rw [decide_eq_true_eq, dot_inner, add_comm]
      exact hle
  · rw [plane_part h (by simp [Contact3.planePair])]
    constructor
    · rintro ⟨p', k', b, i', l, hp, hb, hl, hcl⟩
      have hik := (plane_kind hl hcl).2.1
      cases hik
      unfold bodyPlane at hl
      split at hl
      · cases hl; cases hcl
      · rename_i hf
        split at hl
        · cases hl
          obtain ⟨e, _, he⟩ := List.mem_map.mp hcl
          cases he
        · cases hl
          split at hcl
          · rw [List.mem_singleton] at hcl
            cases hcl
          · cases hcl
        · cases hl
        · rename_i verts hg
          cases hl
          obtain ⟨v, hv, hc⟩ := List.mem_map.mp hcl
          cases hc
          obtain ⟨hv, he⟩ := List.mem_filter.mp hv
          rw [decide_eq_true_eq, dot_inner, add_comm (s.q1.R i *ᵥ _)] at he
          exact ⟨p', b, verts, hp, rfl, hb, by simpa using hf, hg, v, hv, by abel, he⟩
    · rintro ⟨p, b, verts, hp, rfl, hb, hf, hg, v, hv, rfl, hle⟩
      obtain ⟨l, hl⟩ := hall b p hb hp
      refine ⟨p, k, b, i, l, hp, hb, hl, ?_⟩
      unfold bodyPlane at hl
      rw [if_neg (by simp [hf]), hg] at hl
      cases hl
      refine List.mem_map.mpr ⟨v, List.mem_filter.mpr ⟨hv, ?_⟩, ?_⟩
      · rw [decide_eq_true_eq, dot_inner, add_comm]
        exact hle
      · simp [Contact3.mkPlaneBody]

/-- **C61** Contacts with cylinders, with or without portals: a body is in contact with a cylinder exactly if it is not scripted and has a point at the wall or
beyond it at the end of the step, provided that no sphere is thicker than the cylinder (`C61_false_fat_sphere`). (There are no free boxes and staples if there
is a cylinder, `C61_unsupported`.) -/
theorem C61_cylinders (h : s.computeActiveSet3 axis portals = .ok cs) (hs : ∀ b ∈ s.bodies, b.Sound)
    (hn : ∀ c ∈ s.cylinders, inner3 c.axis c.axis = 1 ∧ 0 < c.r) (hfat : ∀ b ∈ s.bodies, ∀ c ∈ s.cylinders, ∀ r, b.geometry = .sphere r → r ≤ c.r)
    (i : Nat) (cyl : Cylinder3) :
    (i, cyl) ∈ cs.filterMap Contact3.cylinderPair ↔ ∃ b, s.bodies[i]? = some b ∧ cyl ∈ s.cylinders ∧ b.fixed = false ∧
      ∃ z ∈ b.pointsAt s.q1 i, cyl.r ^ 2 ≤ cyl.distSqAxis z := by
  have hone : ∀ (b : SceneBody3) (p : Cylinder3) (i k : Nat) (l : List Contact3), s.bodies[i]? = some b → p ∈ s.cylinders → s.bodyCylinder k p i b = .ok l →
      (l ≠ [] ↔ b.fixed = false ∧ ∃ z ∈ b.pointsAt s.q1 i, p.r ^ 2 ≤ p.distSqAxis z) := by
    intro b p i k l hb hp hl
    have hsb := hs b (List.mem_of_getElem? hb)
    obtain ⟨hu, hr0⟩ := hn p hp
    have hthin := hfat b (List.mem_of_getElem? hb) p hp
    obtain ⟨g, m, f⟩ := b
    unfold bodyCylinder at hl
    cases f with
    | true =>
      rw [if_pos rfl] at hl
      cases hl
      simp
    | false =>
      rw [if_neg (by simp)] at hl
      simp only [true_and]
      cases g with
      | box w => cases hl
      | sphere r =>
        cases hl
        have hb := ball_outside hu (x := s.q1.x i) (show 0 < r from hsb) (hthin r rfl)
        refine Iff.trans ?_ hb.symm
        split <;> simp_all
      | staple st => cases hl
      | mesh verts =>
        cases hl
        have hb := mesh_outside (cm := s.q1.x i) (R := s.q1.R i) (show convexHull ℝ {v | v ∈ m.hull} = convexHull ℝ {v | v ∈ verts} from hsb)
          (convex_inside p)
        simp only [Set.mem_ofPred_eq, not_lt] at hb
        have hb' : (∃ z ∈ SceneBody3.pointsAt ⟨.mesh verts, m, false⟩ s.q1 i, p.r ^ 2 ≤ p.distSqAxis z) ↔
            ∃ z ∈ meshSet3 (s.q1.x i) (s.q1.R i) verts, p.r * p.r ≤ squaredNorm3 (p.offset z) := by
          refine exists_congr fun z => and_congr_right fun _ => ?_
          rw [distSqAxis_eq hu, pow_two]
        rw [hb']
        refine Iff.trans ?_ hb.symm
        rw [ne_eq, List.map_eq_nil_iff, List.filter_eq_nil_iff]
        push Not
        refine exists_congr fun v => and_congr_right fun _ => ?_
        rw [decide_eq_true_eq, ge_iff_le, add_comm]
  rw [List.mem_filterMap]
  constructor
  · rintro ⟨c, hc, hcp⟩
    obtain ⟨p, k', b, i', l, hp, hb, hl, hcl⟩ := (cylinder_part h (by simp [hcp])).mp hc
    rw [(cylinder_kind hl hcl).2.2] at hcp
    cases hcp
    exact ⟨b, hb, List.mem_of_getElem? hp, (hone b cyl i k' l hb (List.mem_of_getElem? hp) hl).mp (List.ne_nil_of_mem hcl)⟩
  · rintro ⟨b, hb, hp, hz⟩
    obtain ⟨k, hk⟩ := List.getElem?_of_mem hp
    have hall : ∃ l, s.bodyCylinder k cyl i b = .ok l := by
      unfold computeActiveSet3 at h
      obtain ⟨lb, _, h⟩ := Outcome.bind_ok_iff.mp h
      obtain ⟨lp, _, h⟩ := Outcome.bind_ok_iff.mp h
      obtain ⟨lc, h3, h⟩ := Outcome.bind_ok_iff.mp h
      unfold computeBodyCylinderActiveSetAllPairs at h3
      obtain ⟨here, hh⟩ := (Step2.collect_ok h3).2 (cyl, k) (by rw [List.mk_mem_zipIdx_iff_getElem?]; exact hk)
      exact (Step2.collect_ok hh).2 (b, i) (by rw [List.mk_mem_zipIdx_iff_getElem?]; exact hb)
    obtain ⟨l, hl⟩ := hall
    obtain ⟨c, hcl⟩ := List.exists_mem_of_ne_nil _ ((hone b cyl i k l hb hp hl).mpr hz)
    have hpp := (cylinder_kind hl hcl).2.2
    exact ⟨c, (cylinder_part h (by simp [hpp])).mpr ⟨cyl, k, b, i, l, hk, hb, hl, hcl⟩, hpp⟩

/-! ## Examples and findings -/

/-- No extra data of a mesh -/
def noMesh : MeshData := ⟨[], [], fun _ => none⟩

/-- Two free spheres of radius 1 around `( 0, 1, 0 )` and `( 0, 3, 0 )`, on level ground and inside a vertical cylinder of radius 2 around the point
`( 1, 0, 0 )`; the ground and the cylinder move -/
noncomputable def stackOfSpheres : Step3 where
  bodies := [⟨.sphere 1, noMesh, false⟩, ⟨.sphere 1, noMesh, false⟩]
  planes := [⟨0, ![0, 1, 0], ![1, 0, 0], 0⟩]
  cylinders := [⟨![1, 0, 0], ![0, 1, 0], 0, ![0, 1, 0], 2⟩]
  q0 := ⟨fun i => if i = 0 then ![0, 1, 0] else ![0, 3, 0], fun _ => 1⟩
  q1 := ⟨fun i => if i = 0 then ![0, 1, 0] else ![0, 3, 0], fun _ => 1⟩

theorem stackOfSpheres_boxes : stackOfSpheres.endBoxes = [⟨![-1, 0, -1], ![1, 2, 1]⟩, ⟨![-1, 2, -1], ![1, 4, 1]⟩] := by
  simp [endBoxes, stackOfSpheres, toBox3, Geometry3D.aabb]
  refine ⟨⟨?_, ?_⟩, ?_, ?_⟩ <;> funext i <;> fin_cases i <;> simp <;> norm_num

theorem stackOfSpheres_spread : Spread stackOfSpheres.endBoxes 1625 := by
  rw [stackOfSpheres_boxes]
  have hw : cellWidth ([⟨![-1, 0, -1], ![1, 2, 1]⟩, ⟨![-1, 2, -1], ![1, 4, 1]⟩] : List (Box 3 ℝ)) = 2 := by
    have h : (fun i => ![(1 : ℝ), 2, 1] i - ![-1, 0, -1] i + (![1, 4, 1] i - ![-1, 2, -1] i)) = fun _ => 4 := by
      funext i; fin_cases i <;> simp <;> norm_num
    simp [cellWidth]
    rw [h]
    simp [maxCoeff, Fin.tail]
    norm_num
  intro a ha b hb i
  rw [hw]
  simp only [List.mem_cons, List.not_mem_nil, or_false] at ha hb
  rcases ha with rfl | rfl <;> rcases hb with rfl | rfl <;> fin_cases i <;> simp <;> norm_num

theorem stackOfSpheres_sound : ∀ b ∈ stackOfSpheres.bodies, b.Sound := by simp [stackOfSpheres, SceneBody3.Sound]

theorem stackOfSpheres_surfaces : stackOfSpheres.SupportedSurfaces := by
  intro b hb
  simp only [stackOfSpheres, List.mem_cons, List.not_mem_nil, or_false, or_self] at hb
  subst hb
  simp

/-- The planes and the cylinder of the example meet the hypothesis of C59. -/
theorem stackOfSpheres_proper : stackOfSpheres.ProperSurfaces := by
  refine ⟨by simp [stackOfSpheres, inner3], ?_⟩
  intro c hc
  simp only [stackOfSpheres, List.mem_singleton] at hc
  subst hc
  refine ⟨by simp [inner3], by norm_num, ?_⟩
  intro i b r _ _ t h
  have h0 := congrFun h 0
  simp only [stackOfSpheres] at h0
  split at h0 <;> simp at h0

/-- Non-vacuity of C59, C60 and C61: the two spheres of the stack are in contact, once, the lower one is in contact with the ground and both are in contact
with the cylinder. -/
theorem C61_stack : ∃ cs, stackOfSpheres.computeActiveSet3 axis [] = .ok cs ∧ cs.filterMap Contact3.pair = [(0, 1)] ∧
    (0, 0) ∈ cs.filterMap Contact3.planePair ∧ ∃ c, (1, c) ∈ cs.filterMap Contact3.cylinderPair := by
  obtain ⟨cs, h1, h2⟩ := C61_exact_partial (axis := axis) (s := stackOfSpheres) (by simp [stackOfSpheres]) stackOfSpheres_sound
    (by rw [stackOfSpheres_boxes]
        intro B hB i
        simp only [List.mem_cons, List.not_mem_nil, or_false] at hB
        rcases hB with rfl | rfl <;> fin_cases i <;> simp <;> norm_num)
    stackOfSpheres_spread (by
    intro i j a b _ ha hb _ _
    have ha' := List.mem_of_getElem? ha
    have hb' := List.mem_of_getElem? hb
    simp only [stackOfSpheres, List.mem_cons, List.not_mem_nil, or_false, or_self] at ha' hb'
    subst ha' hb'
    simp [Supported3]) stackOfSpheres_surfaces
  have hmem : ∀ p, p ∈ cs.filterMap Contact3.pair ↔ p = (0, 1) := by
    rintro ⟨i, j⟩
    constructor
    · intro h
      obtain ⟨hij, a, b, ha, hb, _⟩ := (h2 i j).1 h
      have hj := (List.getElem?_eq_some_iff.mp hb).1
      simp only [stackOfSpheres, List.length_cons, List.length_nil] at hj
      have : i = 0 ∧ j = 1 := by omega
      simp [this.1, this.2]
    · intro h
      cases h
      refine (h2 0 1).2.1 ⟨.sphere 1, noMesh, false⟩ ⟨.sphere 1, noMesh, false⟩ (by norm_num) rfl rfl (by simp) ?_
      refine ⟨![0, 2, 0], ?_, ?_⟩ <;> simp [SceneBody3.pointsAt, PosedBody3D.points, ballSet3, stackOfSpheres] <;> norm_num
  refine ⟨cs, h1, ?_, ?_, ⟨![1, 0, 0], ![0, 1, 0], 0, ![0, 1, 0], 2⟩, ?_⟩
  · have hc : (cs.filterMap Contact3.pair).count (0, 1) ≤ 1 := (h2 0 1).2.2 ⟨.sphere 1, noMesh, false⟩ 1 rfl rfl
    rw [List.eq_replicate_of_mem (fun p hp => (hmem p).mp hp : ∀ p ∈ cs.filterMap Contact3.pair, p = (0, 1))] at hc ⊢
    rw [List.count_replicate_self] at hc
    have hpos : 0 < (cs.filterMap Contact3.pair).length := List.length_pos_of_mem ((hmem (0, 1)).mpr rfl)
    rw [show (cs.filterMap Contact3.pair).length = 1 by omega]
    rfl
  · rw [C61_planes h1 stackOfSpheres_sound (by simp [stackOfSpheres, inner3])]
    refine ⟨⟨.sphere 1, noMesh, false⟩, _, rfl, rfl, rfl, 0, ?_, by simp [inner3]⟩
    simp [SceneBody3.pointsAt, PosedBody3D.points, ballSet3, stackOfSpheres]
  · rw [C61_cylinders h1 stackOfSpheres_sound (by simp [stackOfSpheres, inner3]) (by simp [stackOfSpheres])]
    refine ⟨⟨.sphere 1, noMesh, false⟩, rfl, by simp [stackOfSpheres], rfl, ![-1, 3, 0], ?_, ?_⟩
    · simp [SceneBody3.pointsAt, PosedBody3D.points, ballSet3, stackOfSpheres]
    · simp [Cylinder3.distSqAxis, inner3]
      norm_num

theorem spread_one {B : Box 3 ℝ} (h : 4 / 1000000 ≤ 1624 * (B.max 0 - B.min 0)) : Spread [B] 1625 := by
  intro a ha b hb i
  rw [List.mem_singleton] at ha hb
  subst ha
  subst hb
  have h0 := le_maxCoeff 2 (fun i => b.max i - b.min i) 0
  have hi := le_maxCoeff 2 (fun i => b.max i - b.min i) i
  have hw : cellWidth [b] = maxCoeff 2 (fun i => b.max i - b.min i) := by simp [cellWidth]
  rw [hw]
  push_cast
  linarith

/-- A scene with one body has an active set. -/
theorem one_body {b : SceneBody3} {B : Box 3 ℝ} (hb : s.bodies = [b]) (hs : b.Sound) (hB : s.endBoxes = [B]) (hv : B.Valid)
    (h : 4 / 1000000 ≤ 1624 * (B.max 0 - B.min 0)) (hsurf : s.SupportedSurfaces) : ∃ cs, s.computeActiveSet3 axis [] = .ok cs := by
  obtain ⟨cs, h1, _⟩ := C61_exact_partial (axis := axis) (s := s) (by simp [hb]) (by simpa [hb] using hs) (by simpa [hB] using hv)
    (by rw [hB]; exact spread_one h) (by
      intro i j a b' hij _ hj
      have := (List.getElem?_eq_some_iff.mp hj).1
      simp only [hb, List.length_cons, List.length_nil] at this
      omega) hsurf
  exact ⟨cs, h1⟩

/-- A free box of half width 1 at rest on ground that moves to the right with velocity 1 -/
noncomputable def boxOnBelt3 : Step3 where
  bodies := [⟨.box ![1, 1, 1], noMesh, false⟩]
  planes := [⟨0, ![0, 1, 0], ![1, 0, 0], 0⟩]
  cylinders := []
  q0 := ⟨fun _ => ![0, 1, 0], fun _ => 1⟩
  q1 := ⟨fun _ => ![0, 1, 0], fun _ => 1⟩

theorem boxOnBelt3_boxes : boxOnBelt3.endBoxes = [⟨![-1, 0, -1], ![1, 2, 1]⟩] := by
  simp [endBoxes, boxOnBelt3, toBox3, Geometry3D.aabb]
  refine ⟨?_, ?_⟩ <;> funext i <;> fin_cases i <;> simp [mulVec3, Matrix.one_apply] <;> norm_num

/-- C59, finding: a box at rest on ground that moves to the right has a contact whose relative velocity is zero, although the ground moves relative to
the box; so there is no friction. -/
theorem C59_false_moving_plane : ∃ cs c, boxOnBelt3.computeActiveSet3 axis [] = .ok cs ∧ c ∈ cs ∧ c.Direct ∧ boxOnBelt3.ProperSurfaces ∧
    ∃ P, c.contactPoint boxOnBelt3.q0 = .ok P ∧ c.relVel boxOnBelt3.nb boxOnBelt3.q0 (fun _ => 0) = 0 ∧
    bodyVelocity3 boxOnBelt3.nb boxOnBelt3.q0 (fun _ => 0) c.simulatedBodies.1 P - partnerVelocity3 boxOnBelt3 (fun _ => 0) c P = ![-1, 0, 0] := by
  have hs : ∀ b ∈ boxOnBelt3.bodies, b.Sound := by
    simp only [boxOnBelt3, List.mem_singleton, forall_eq, SceneBody3.Sound]
    intro i; fin_cases i <;> simp
  obtain ⟨cs, h1⟩ := one_body (axis := axis) (s := boxOnBelt3) rfl (hs _ (by simp [boxOnBelt3])) boxOnBelt3_boxes
    (by intro i; fin_cases i <;> simp <;> norm_num) (by simp; norm_num) (by
      intro b hb
      simp only [boxOnBelt3, List.mem_singleton] at hb
      subst hb
      simp [boxOnBelt3])
  have hc : Contact3.planeBox 0 ![0, 1, 0] ((1 : Mat3) *ᵥ ![1, -1, 1]) 0 ∈ cs := by
    rw [(C61_plane_points h1 hs 0 0).2.1]
    refine ⟨_, _, _, rfl, rfl, rfl, rfl, rfl, ![1, -1, 1], ?_, rfl, ?_⟩
    · intro t; fin_cases t <;> simp
    · simp [boxOnBelt3, inner3]
  refine ⟨cs, _, h1, hc, trivial, ⟨by simp [boxOnBelt3, inner3], by simp [boxOnBelt3]⟩, _, rfl, ?_, ?_⟩
  · simp [Contact3.relVel]
  · apply vec3_ext <;> simp [Contact3.simulatedBodies, bodyVelocity3, partnerVelocity3, rigidVelocity3, boxOnBelt3]

/-- A free sphere of radius 3/2 around a point of the axis of a cylinder of radius 1 -/
noncomputable def sphereInPipe : Step3 where
  bodies := [⟨.sphere (3 / 2), noMesh, false⟩]
  planes := []
  cylinders := [⟨0, ![0, 1, 0], 0, 0, 1⟩]
  q0 := ⟨fun _ => 0, fun _ => 1⟩
  q1 := ⟨fun _ => 0, fun _ => 1⟩

/-- C61, finding: a sphere that is thicker than the cylinder has points beyond the wall, but no contact. -/
theorem C61_false_fat_sphere : ∃ cs, sphereInPipe.computeActiveSet3 axis [] = .ok cs ∧ (∀ i c, (i, c) ∉ cs.filterMap Contact3.cylinderPair) ∧
    ∃ b c, b ∈ sphereInPipe.bodies ∧ c ∈ sphereInPipe.cylinders ∧ b.fixed = false ∧ ∃ z ∈ b.pointsAt sphereInPipe.q1 0, c.r ^ 2 < c.distSqAxis z := by
  have hbox : sphereInPipe.endBoxes = [⟨![-(3 / 2), -(3 / 2), -(3 / 2)], ![3 / 2, 3 / 2, 3 / 2]⟩] := by
    simp [endBoxes, sphereInPipe, toBox3, Geometry3D.aabb]
    refine ⟨?_, ?_⟩ <;> funext i <;> fin_cases i <;> simp
  obtain ⟨cs, h1⟩ := one_body (axis := axis) (s := sphereInPipe) rfl (by simp [SceneBody3.Sound]) hbox
    (by intro i; fin_cases i <;> simp <;> norm_num) (by simp; norm_num) (by
      intro b hb
      simp only [sphereInPipe, List.mem_singleton] at hb
      subst hb
      simp [sphereInPipe])
  refine ⟨cs, h1, ?_, ⟨.sphere (3 / 2), noMesh, false⟩, ⟨0, ![0, 1, 0], 0, 0, 1⟩, by simp [sphereInPipe], by simp [sphereInPipe], rfl, ![3 / 2, 0, 0], ?_, ?_⟩
  · intro i cyl hm
    obtain ⟨c, hc, hp⟩ := List.mem_filterMap.mp hm
    obtain ⟨p, k, b, i', l, hcyl, hb, hl, hcl⟩ := (cylinder_part h1 (by simp [hp])).mp hc
    have hcyl := List.mem_of_getElem? hcyl
    have hb := List.mem_of_getElem? hb
    simp only [sphereInPipe, List.mem_singleton] at hcyl hb
    subst hcyl hb
    have hz : ¬squaredNorm3 (Cylinder3.offset ⟨0, ![0, 1, 0], 0, 0, 1⟩ (sphereInPipe.q1.x i')) ≥ (1 - 3 / 2) * (1 - 3 / 2) := by
      simp [Cylinder3.offset, sphereInPipe, squaredNorm3]
      norm_num
    unfold bodyCylinder at hl
    simp only [Bool.false_eq_true, if_false, if_neg hz] at hl
    cases hl
    cases hcl
  · simp [SceneBody3.pointsAt, PosedBody3D.points, ballSet3, sphereInPipe]
  · simp [Cylinder3.distSqAxis, inner3]
    norm_num

/-- A free tetrahedron with the centre `( 1/2, 0, 0 )` that touches the wall of a cylinder of radius 1 around the third axis in the point `( 0, 1, 0 )` -/
noncomputable def tetraInPipe : Step3 where
  bodies := [⟨.mesh [![-1/2, 1, 0], ![1/5, -1/5, 1/2], ![1/5, -1/5, -1/2], ![1/10, -3/5, 0]],
    ⟨[![-1/2, 1, 0], ![1/5, -1/5, 1/2], ![1/5, -1/5, -1/2], ![1/10, -3/5, 0]], [], fun _ => none⟩, false⟩]
  planes := []
  cylinders := [⟨0, ![0, 0, 1], 0, 0, 1⟩]
  q0 := ⟨fun _ => ![1/2, 0, 0], fun _ => 1⟩
  q1 := ⟨fun _ => ![1/2, 0, 0], fun _ => 1⟩

/-- C59, finding: the contact of a mesh with a cylinder has the normal at the centre of the body, not the one at the point of contact; here it is tangent to
the wall, such that no impulse along it keeps the vertex inside. -/
theorem C59_false_cylinder_normal : ∃ cs arm cyl, tetraInPipe.computeActiveSet3 axis [] = .ok cs ∧ Contact3.cylinderBody 0 arm cyl ∈ cs ∧
    cyl ∈ tetraInPipe.cylinders ∧ cyl.distSqAxis (tetraInPipe.q0.x 0 + arm) = cyl.r ^ 2 ∧
    inner3 ((Contact3.cylinderBody 0 arm cyl).normal tetraInPipe.q0) (tetraInPipe.q0.x 0 + arm - cyl.x) = 0 := by
  have hbox : tetraInPipe.endBoxes = [⟨![0, -3/5, -1/2], ![7/10, 1, 1/2]⟩] := by
    simp [endBoxes, tetraInPipe, toBox3, Geometry3D.aabb, pointsAABB, growBox]
    refine ⟨?_, ?_⟩ <;> funext i <;> fin_cases i <;> simp <;> norm_num
  obtain ⟨cs, h1⟩ := one_body (axis := axis) (s := tetraInPipe) rfl (by simp [SceneBody3.Sound]) hbox
    (by intro i; fin_cases i <;> simp <;> norm_num) (by simp; norm_num) (by
      intro b hb
      simp only [tetraInPipe, List.mem_singleton] at hb
      subst hb
      simp [tetraInPipe])
  refine ⟨cs, ![-1/2, 1, 0], ⟨0, ![0, 0, 1], 0, 0, 1⟩, h1, ?_, by simp [tetraInPipe], ?_, ?_⟩
  · rw [cylinder_part h1 (by simp [Contact3.cylinderPair])]
    refine ⟨_, 0, _, 0, _, rfl, rfl, rfl, ?_⟩
    refine List.mem_map.mpr ⟨![-1/2, 1, 0], List.mem_filter.mpr ⟨by simp, ?_⟩, ?_⟩
    · rw [decide_eq_true_eq, squaredNorm3_eq]
      simp [Cylinder3.offset, tetraInPipe]
      norm_num
    · simp [Contact3.mkCylinderBody, tetraInPipe]
      funext i
      fin_cases i
      rfl
  · simp [Cylinder3.distSqAxis, inner3, tetraInPipe]
    norm_num
  · simp [Contact3.normal, Cylinder3.offset, inner3, tetraInPipe]
    right
    norm_num

/-- Two free tetrahedra, the second moved by 1/2 along the first axis; every vertex is a sample, and the signed distance fields say that the points with a
first coordinate up to 1 are inside. -/
noncomputable def twoTetras : Step3 where
  bodies :=
    let verts : List Vec3 := [![-1/2, 1, 0], ![1/5, -1/5, 1/2], ![1/5, -1/5, -1/2], ![1/10, -3/5, 0]]
    let detect : Vec3 → Option Vec3 := fun x => open Classical in if x 0 ≤ 1 then some ![1, 0, 0] else none
    [⟨.mesh verts, ⟨verts, verts, detect⟩, false⟩, ⟨.mesh verts, ⟨verts, verts, detect⟩, false⟩]
  planes := []
  cylinders := []
  q0 := ⟨fun i => if i = 0 then 0 else ![1/2, 0, 0], fun _ => 1⟩
  q1 := ⟨fun i => if i = 0 then 0 else ![1/2, 0, 0], fun _ => 1⟩

/-- Non-vacuity of `C61_mesh_contacts` -/
theorem C61_tetras : (∀ k, twoTetras.q1.R k * (twoTetras.q1.R k).transpose = 1) ∧
    ∃ cs c, twoTetras.computeActiveSet3 axis [] = .ok cs ∧ c ∈ cs ∧ c.pair = some (0, 1) := by
  have hbox : twoTetras.endBoxes = [⟨![-1/2, -3/5, -1/2], ![1/5, 1, 1/2]⟩, ⟨![0, -3/5, -1/2], ![7/10, 1, 1/2]⟩] := by
    simp [endBoxes, twoTetras, toBox3, Geometry3D.aabb, pointsAABB, growBox]
    refine ⟨⟨?_, ?_⟩, ?_, ?_⟩ <;> funext i <;> fin_cases i <;> simp <;> norm_num
  refine ⟨by simp [twoTetras], ?_⟩
  have hs : ∀ b ∈ twoTetras.bodies, b.Sound := by simp [twoTetras, SceneBody3.Sound]
  have hspread : Spread twoTetras.endBoxes 1625 := by
    rw [hbox]
    have hw : 16 / 10 ≤ cellWidth ([⟨![-1/2, -3/5, -1/2], ![1/5, 1, 1/2]⟩, ⟨![0, -3/5, -1/2], ![7/10, 1, 1/2]⟩] : List (Box 3 ℝ)) := by
      have h := le_maxCoeff 2 (fun i => ![(1 / 5 : ℝ), 1, 1/2] i - ![-1/2, -3/5, -1/2] i + (![7/10, 1, 1/2] i - ![0, -3/5, -1/2] i)) 1
      simp only [cellWidth, List.foldl_cons, List.foldl_nil, List.length_cons, List.length_nil, zero_add]
      rw [le_div_iff₀ (by norm_num)]
      refine le_trans ?_ h
      simp
      norm_num
    intro a ha b hb i
    refine le_trans ?_ (mul_le_mul_of_nonneg_left hw (by norm_num))
    simp only [List.mem_cons, List.not_mem_nil, or_false] at ha hb
    rcases ha with rfl | rfl <;> rcases hb with rfl | rfl <;> fin_cases i <;> simp <;> norm_num
  obtain ⟨cs, h1, h2⟩ := C61_exact_partial (axis := axis) (s := twoTetras) (by simp [twoTetras]) hs
    (by rw [hbox]
        intro B hB i
        simp only [List.mem_cons, List.not_mem_nil, or_false] at hB
        rcases hB with rfl | rfl <;> fin_cases i <;> simp <;> norm_num) hspread (by
      intro i j a b _ ha hb _ _
      have ha' := List.mem_of_getElem? ha
      have hb' := List.mem_of_getElem? hb
      simp only [twoTetras, List.mem_cons, List.not_mem_nil, or_false, or_self] at ha' hb'
      subst ha' hb'
      simp [Supported3]) (by simp [twoTetras, SupportedSurfaces])
  have hp : (0, 1) ∈ cs.filterMap Contact3.pair := by
    refine (h2 0 1).2.1 _ _ (by norm_num) rfl rfl (by simp) ?_
    refine ⟨?_, ![-1/2, 1, 0], ![1, 0, 0], Or.inl ⟨![-1/2, 1, 0], by simp, ?_, ![1, 0, 0], ?_, ?_⟩⟩
    · refine ⟨(![-1/2, -3/5, -1/2], ![1/5, 1, 1/2]), (![0, -3/5, -1/2], ![7/10, 1, 1/2]), ![1/10, 0, 0], ?_, ?_, ?_⟩
      · simp [twoTetras, Geometry3D.aabb, pointsAABB, growBox]
        refine ⟨?_, ?_⟩ <;> funext i <;> fin_cases i <;> simp <;> norm_num
      · simp [twoTetras, Geometry3D.aabb, pointsAABB, growBox]
        refine ⟨?_, ?_⟩ <;> funext i <;> fin_cases i <;> simp <;> norm_num
      · intro t
        fin_cases t <;> simp <;> norm_num
    · simp [twoTetras]
    · simp [twoTetras]
      norm_num
    · simp [twoTetras]
  obtain ⟨c, hc, hcp⟩ := List.mem_filterMap.mp hp
  exact ⟨cs, c, h1, hc, hcp⟩

/-- A free sphere of radius 1 around the origin, and a scripted box of half width 1 around `( 19/10, 19/10, 19/10 )` -/
noncomputable def sphereAndBlock : Step3 where
  bodies := [⟨.sphere 1, noMesh, false⟩, ⟨.box ![1, 1, 1], noMesh, true⟩]
  planes := []
  cylinders := []
  q0 := ⟨fun i => if i = 0 then 0 else ![19/10, 19/10, 19/10], fun _ => 1⟩
  q1 := ⟨fun i => if i = 0 then 0 else ![19/10, 19/10, 19/10], fun _ => 1⟩

/-- C61, finding: the program exits although the sphere and the scripted box have no point in common. -/
theorem C61_exits_apart : sphereAndBlock.computeActiveSet3 axis [] = .exit ∧
    ∀ a b, sphereAndBlock.bodies[0]? = some a → sphereAndBlock.bodies[1]? = some b →
      ∀ z, ¬(z ∈ a.pointsAt sphereAndBlock.q1 0 ∧ z ∈ b.pointsAt sphereAndBlock.q1 1) := by
  have hbox : sphereAndBlock.endBoxes = [⟨![-1, -1, -1], ![1, 1, 1]⟩, ⟨![9/10, 9/10, 9/10], ![29/10, 29/10, 29/10]⟩] := by
    simp [endBoxes, sphereAndBlock, toBox3, Geometry3D.aabb]
    refine ⟨⟨?_, ?_⟩, ?_, ?_⟩ <;> funext i <;> fin_cases i <;> simp [mulVec3, Matrix.one_apply] <;> norm_num
  have hspread : Spread sphereAndBlock.endBoxes 1625 := by
    rw [hbox]
    have hw : 2 ≤ cellWidth ([⟨![-1, -1, -1], ![1, 1, 1]⟩, ⟨![9/10, 9/10, 9/10], ![29/10, 29/10, 29/10]⟩] : List (Box 3 ℝ)) := by
      have h := le_maxCoeff 2 (fun i => ![(1 : ℝ), 1, 1] i - ![-1, -1, -1] i + (![29/10, 29/10, 29/10] i - ![9/10, 9/10, 9/10] i)) 1
      simp only [cellWidth, List.foldl_cons, List.foldl_nil, List.length_cons, List.length_nil, zero_add]
      rw [le_div_iff₀ (by norm_num)]
      refine le_trans ?_ h
      simp
      norm_num
    intro a ha b hb i
    refine le_trans ?_ (mul_le_mul_of_nonneg_left hw (by norm_num))
    simp only [List.mem_cons, List.not_mem_nil, or_false] at ha hb
    rcases ha with rfl | rfl <;> rcases hb with rfl | rfl <;> fin_cases i <;> simp <;> norm_num
  constructor
  · refine C61_exits (i := 0) (j := 1) (by simp [sphereAndBlock]) ?_ hspread (by norm_num) rfl rfl (by simp) ?_ (by simp [SameKind3])
    · rw [hbox]
      intro B hB i
      simp only [List.mem_cons, List.not_mem_nil, or_false] at hB
      rcases hB with rfl | rfl <;> fin_cases i <;> simp <;> norm_num
    · refine ⟨_, _, ![95/100, 95/100, 95/100], rfl, rfl, ?_⟩
      intro t
      fin_cases t <;> simp [sphereAndBlock, mulVec3, Matrix.one_apply] <;> norm_num
  · intro a b ha hb z
    cases ha
    cases hb
    rintro ⟨hz, w, hw, rfl⟩
    have h0 := hw 0
    have h1 := hw 1
    have h2 := hw 2
    simp [abs_le] at h0 h1 h2
    have hz' : (19 / 10 + w 0) ^ 2 + (19 / 10 + w 1) ^ 2 + (19 / 10 + w 2) ^ 2 ≤ 1 := by
      simpa [SceneBody3.pointsAt, PosedBody3D.points, ballSet3, sphereAndBlock, vecHead, vecTail] using hz
    nlinarith [h0.1, h1.1, h2.1]

/-- A free and a scripted box of half width 1 around the origin and `( 19/10, 19/10, 19/10 )` -/
noncomputable def twoBlocks : Step3 where
  bodies := [⟨.box ![1, 1, 1], noMesh, false⟩, ⟨.box ![1, 1, 1], noMesh, true⟩]
  planes := []
  cylinders := []
  q0 := ⟨fun i => if i = 0 then 0 else ![19/10, 19/10, 19/10], fun _ => 1⟩
  q1 := ⟨fun i => if i = 0 then 0 else ![19/10, 19/10, 19/10], fun _ => 1⟩

/-- Non-vacuity of `C61_exact_partial` and `C61_box_contacts` for boxes: the two boxes are in contact. -/
theorem C61_blocks : ∃ cs, twoBlocks.computeActiveSet3 axis [] = .ok cs ∧ ∃ n r, .kinematicBody 0 1 n r ∈ cs := by
  have hbox : twoBlocks.endBoxes = [⟨![-1, -1, -1], ![1, 1, 1]⟩, ⟨![9/10, 9/10, 9/10], ![29/10, 29/10, 29/10]⟩] := by
    simp [endBoxes, twoBlocks, toBox3, Geometry3D.aabb]
    refine ⟨?_, ?_, ?_⟩ <;> funext i <;> fin_cases i <;> simp <;> norm_num
  have hspread : Spread twoBlocks.endBoxes 1625 := by
    rw [hbox]
    have hw : 2 ≤ cellWidth ([⟨![-1, -1, -1], ![1, 1, 1]⟩, ⟨![9/10, 9/10, 9/10], ![29/10, 29/10, 29/10]⟩] : List (Box 3 ℝ)) := by
      have h := le_maxCoeff 2 (fun i => ![(1 : ℝ), 1, 1] i - ![-1, -1, -1] i + (![29/10, 29/10, 29/10] i - ![9/10, 9/10, 9/10] i)) 1
      simp only [cellWidth, List.foldl_cons, List.foldl_nil, List.length_cons, List.length_nil, zero_add]
      rw [le_div_iff₀ (by norm_num)]
      refine le_trans ?_ h
      simp
      norm_num
    intro a ha b hb i
    refine le_trans ?_ (mul_le_mul_of_nonneg_left hw (by norm_num))
    simp only [List.mem_cons, List.not_mem_nil, or_false] at ha hb
    rcases ha with rfl | rfl <;> rcases hb with rfl | rfl <;> fin_cases i <;> simp <;> norm_num
  have hwid : ∀ t : Fin 3, (0 : ℝ) < ![1, 1, 1] t := by intro t; fin_cases t <;> simp
  obtain ⟨cs, h1, h2⟩ := C61_exact_partial (axis := axis) (s := twoBlocks) (by simp [twoBlocks])
    (by
      intro b hb
      simp only [twoBlocks, List.mem_cons, List.not_mem_nil, or_false] at hb
      rcases hb with rfl | rfl <;> exact fun t => (hwid t).le)
    (by rw [hbox]
        intro B hB i
        simp only [List.mem_cons, List.not_mem_nil, or_false] at hB
        rcases hB with rfl | rfl <;> fin_cases i <;> simp <;> norm_num) hspread (by
      intro i j a b _ ha hb _ _
      have ha' := List.mem_of_getElem? ha
      have hb' := List.mem_of_getElem? hb
      simp only [twoBlocks, List.mem_cons, List.not_mem_nil, or_false] at ha' hb'
      rcases ha' with rfl | rfl <;> rcases hb' with rfl | rfl <;> exact ⟨hwid, hwid, by simp [twoBlocks], by simp [twoBlocks]⟩)
    (by
      intro b _ _
      exact ⟨fun h => absurd rfl h, fun h => absurd rfl h⟩)
  refine ⟨cs, h1, ?_⟩
  have hp : (0, 1) ∈ cs.filterMap Contact3.pair := by
    refine (h2 0 1).2.1 _ _ (by norm_num) rfl rfl (by simp) ⟨![95/100, 95/100, 95/100], ⟨![95/100, 95/100, 95/100], ?_, ?_⟩,
      ⟨![-95/100, -95/100, -95/100], ?_, ?_⟩⟩
    · intro t; fin_cases t <;> simp [abs_lt] <;> norm_num
    · simp [twoBlocks]
    · intro t; fin_cases t <;> simp [abs_lt] <;> norm_num
    · funext t; fin_cases t <;> simp [twoBlocks] <;> norm_num
  obtain ⟨c, hc, hcp⟩ := List.mem_filterMap.mp hp
  have hg : ∀ (i : Nat) (b : SceneBody3) (r : ℝ), twoBlocks.bodies[i]? = some b → b.geometry ≠ .sphere r := by
    intro i b r hb hr
    have hb := List.mem_of_getElem? hb
    simp only [twoBlocks, List.mem_cons, List.not_mem_nil, or_false] at hb
    rcases hb with rfl | rfl <;> cases hr
  have hfree : ∀ i, twoBlocks.Free i → i = 0 := by
    rintro i ⟨b, hb, hf⟩
    match i, hb with
    | 0, _ => rfl
    | 1, hb => cases hb; cases hf
  cases made_activeSet h1 hc with
  | bodyBody i j p n b hi hb hf =>
    cases hfree i hi
    cases hfree j ⟨b, hb, hf⟩
    cases hcp
  | kinematicBody i k p n b hi hb hf =>
    cases hfree i hi
    simp only [Contact3.mkKinematicBody, Contact3.pair, Option.some.injEq, Prod.mk.injEq] at hcp
    have hk : k = 1 := by omega
    subst hk
    exact ⟨_, _, hc⟩
  | sphereSphere i j a b ra rb ha hb haf hbf hga hgb => exact absurd hga (hg i a ra ha)
  | kinematicSphere i j a b ra rb ha hb haf hbf hga hgb => exact absurd hga (hg i a ra ha)
  | teleported u w a b ra rb ha hb haf hbf hga hgb hvia => exact absurd hga (hg _ a ra ha)
  | kinematicTeleported u w a b ra rb ha hb haf hbf hga hgb hvia => exact absurd hga (hg _ a ra ha)
  | planeSphere => cases hcp
  | planeBox => cases hcp
  | planeBody => cases hcp
  | cylinderSphere => cases hcp
  | cylinderBody => cases hcp

/-- A rotation by 60 degrees about a diagonal of space -/
noncomputable def tiltedR : Mat3 := !![2/3, -1/3, 2/3; 2/3, 2/3, -1/3; -1/3, 2/3, 2/3]

/-- Two free staples of width 4, length 4 and thickness 1, turned by a rotation; the second is moved by `d` -/
noncomputable def twoStaples (d : Vec3) : Step3 where
  bodies := [⟨.staple (Staple.make 4 4 1), noMesh, false⟩, ⟨.staple (Staple.make 4 4 1), noMesh, false⟩]
  planes := []
  cylinders := []
  q0 := ⟨fun i => if i = 0 then 0 else d, fun _ => tiltedR⟩
  q1 := ⟨fun i => if i = 0 then 0 else d, fun _ => tiltedR⟩

theorem twoStaples_corners : (Staple.make 4 4 1).corners = [![-3/2, 2, 0], ![-3/2, -1, 0], ![3/2, -1, 0], ![3/2, 2, 0]] := by
  simp [Staple.make, Staple.corners, Staple.centerOfMassY]
  norm_num

theorem twoStaples_aabb (d : Vec3) : (Geometry3D.staple (Staple.make 4 4 1)).aabb d tiltedR =
    some (![d 0 - 5/3, d 1 - 5/3, d 2 - 7/6], ![d 0 + 4/3, d 1 + 7/3, d 2 + 11/6]) := by
  have hm : ∀ (x y : ℝ), tiltedR *ᵥ ![x, y, 0] = ![2/3 * x - y / 3, 2/3 * x + 2/3 * y, 2/3 * y - x / 3] := by
    intro x y
    funext i
    fin_cases i <;> simp [tiltedR] <;> ring
  simp only [Geometry3D.aabb, twoStaples_corners, pointsAABB, List.foldl_cons, List.foldl_nil, growBox, hm, Option.some.injEq, Prod.mk.injEq]
  constructor
  · funext i
    fin_cases i <;> simp <;> simp only [min_def] <;> split_ifs <;> linarith
  · funext i
    fin_cases i <;> simp <;> simp only [max_def] <;> split_ifs <;> linarith

theorem tiltedR_orth : tiltedR.transpose * tiltedR = 1 := by
  ext i j
  fin_cases i <;> fin_cases j <;> simp [tiltedR, Matrix.mul_apply, Fin.sum_univ_three] <;> norm_num

theorem twoStaples_boxes (d : Vec3) : (twoStaples d).endBoxes =
    [⟨![-5/3, -5/3, -7/6], ![4/3, 7/3, 11/6]⟩, ⟨![d 0 - 5/3, d 1 - 5/3, d 2 - 7/6], ![d 0 + 4/3, d 1 + 7/3, d 2 + 11/6]⟩] := by
  simp [endBoxes, twoStaples, twoStaples_aabb, toBox3]
  norm_num

theorem twoStaples_valid (d : Vec3) : ∀ B ∈ (twoStaples d).endBoxes, B.Valid := by
  rw [twoStaples_boxes]
  intro B hB i
  simp only [List.mem_cons, List.not_mem_nil, or_false] at hB
  rcases hB with rfl | rfl <;> fin_cases i <;> simp <;> linarith

theorem twoStaples_spread (d : Vec3) (hd : ∀ i, |d i| ≤ 10) : Spread (twoStaples d).endBoxes 1625 := by
  rw [twoStaples_boxes]
  have hw : 4 ≤ cellWidth ([⟨![-5/3, -5/3, -7/6], ![4/3, 7/3, 11/6]⟩, ⟨![d 0 - 5/3, d 1 - 5/3, d 2 - 7/6], ![d 0 + 4/3, d 1 + 7/3, d 2 + 11/6]⟩] : List (Box 3 ℝ)) := by
    have h := le_maxCoeff 2 (fun i => ![(4/3 : ℝ), 7/3, 11/6] i - ![-5/3, -5/3, -7/6] i + (![d 0 + 4/3, d 1 + 7/3, d 2 + 11/6] i - ![d 0 - 5/3, d 1 - 5/3, d 2 - 7/6] i)) 1
    simp only [cellWidth, List.foldl_cons, List.foldl_nil, List.length_cons, List.length_nil, zero_add]
    rw [le_div_iff₀ (by norm_num)]
    refine le_trans ?_ h
    simp
    linarith
  intro a ha b hb i
  refine le_trans ?_ (mul_le_mul_of_nonneg_left hw (by norm_num))
  have h0 := abs_le.mp (hd 0)
  have h1 := abs_le.mp (hd 1)
  have h2 := abs_le.mp (hd 2)
  simp only [List.mem_cons, List.not_mem_nil, or_false] at ha hb
  rcases ha with rfl | rfl <;> rcases hb with rfl | rfl <;> fin_cases i <;> simp <;> linarith

/-- A corner of a staple is in it, and so is a point at most the radius away. -/
theorem near_corner {d z v : Vec3} (hv : v ∈ (Staple.make 4 4 1).corners) (hz : z ∈ ballSet3 (tiltedR *ᵥ v + d) (1 / 2)) : z ∈ stapleSet3 d tiltedR (Staple.make 4 4 1) := by
  have hr : (Staple.make 4 4 1).r = 1 / 2 := by simp [Staple.make]
  rw [staple_mem]
  have hcorner : ∀ k, (Staple.make 4 4 1).corner k = ([![-3/2, 2, 0], ![-3/2, -1, 0], ![3/2, -1, 0], ![3/2, 2, 0]] : List Vec3).getD k 0 := by
    intro k
    rw [Staple.corner, twoStaples_corners]
  rw [twoStaples_corners] at hv
  simp only [List.mem_cons, List.not_mem_nil, or_false] at hv
  rw [← hr] at hz
  rcases hv with rfl | rfl | rfl | rfl
  · exact ⟨0, by norm_num, _, left_mem_segment _ _ _, by rw [hcorner]; exact hz⟩
  · exact ⟨1, by norm_num, _, left_mem_segment _ _ _, by rw [hcorner]; exact hz⟩
  · exact ⟨2, by norm_num, _, left_mem_segment _ _ _, by rw [hcorner]; exact hz⟩
  · exact ⟨2, by norm_num, _, right_mem_segment _ _ _, by rw [hcorner]; exact hz⟩

/-- Non-vacuity of `C61_staples_exit`: a staple and its copy half a unit away -/
theorem C61_staples_exit_example : (twoStaples ![1/2, 0, 0]).computeActiveSet3 axis [] = .exit := by
  refine C61_staples_exit (i := 0) (j := 1) (by simp [twoStaples]) (twoStaples_valid _) (twoStaples_spread _ ?_) (by norm_num) rfl rfl (by simp) ?_ rfl rfl
    tiltedR_orth tiltedR_orth (by norm_num [Staple.make]) (by norm_num [Staple.make]) (by norm_num [Staple.make]) (by norm_num [Staple.make])
    (by norm_num [Staple.make]) (by norm_num [Staple.make]) (z := tiltedR *ᵥ ![-3/2, 2, 0] + ![1/2, 0, 0]) ?_ ?_
  · intro i; fin_cases i <;> simp [abs_le] <;> norm_num
  · refine ⟨_, _, 0, twoStaples_aabb _, twoStaples_aabb _, ?_⟩
    intro t; fin_cases t <;> simp [twoStaples] <;> norm_num
  · refine near_corner (d := 0) (v := ![-3/2, 2, 0]) (by rw [twoStaples_corners]; simp) ?_
    rw [ballSet3, Set.mem_ofPred_eq]
    simp
  · refine near_corner (d := ![1/2, 0, 0]) (v := ![-3/2, 2, 0]) (by rw [twoStaples_corners]; simp) ?_
    rw [ballSet3, Set.mem_ofPred_eq]
    simp

/-- C61, finding: two staples that have a point in common, but whose axis aligned boxes, which are those of the centrelines, do not meet have no contact. -/
theorem C61_false_staples : (twoStaples ![7/2, 0, -3]).computeActiveSet3 axis [] = .ok [] ∧
    ∃ a b, (twoStaples ![7/2, 0, -3]).bodies[0]? = some a ∧ (twoStaples ![7/2, 0, -3]).bodies[1]? = some b ∧
      ∃ z, z ∈ a.pointsAt (twoStaples ![7/2, 0, -3]).q1 0 ∧ z ∈ b.pointsAt (twoStaples ![7/2, 0, -3]).q1 1 := by
  constructor
  · obtain ⟨pairs, hp, -, hset⟩ := overlaps_ok3 (s := twoStaples ![7/2, 0, -3]) (by simp [twoStaples]) (twoStaples_valid _) (twoStaples_spread _ (by
      intro i; fin_cases i <;> simp [abs_le] <;> norm_num))
    have hnil : pairs = [] := by
      rw [List.eq_nil_iff_forall_not_mem]
      rintro ⟨i, j⟩ hij
      obtain ⟨hlt, A, B, hA, hB, z, h1, h2⟩ := (hset i j).mp hij
      rw [twoStaples_boxes] at hA hB
      have hj := (List.getElem?_eq_some_iff.mp hB).1
      simp only [List.length_cons, List.length_nil] at hj
      have : i = 0 ∧ j = 1 := by omega
      obtain ⟨rfl, rfl⟩ := this
      cases hA
      cases hB
      have k1 := (h1 0).2
      have k2 := (h2 0).1
      simp at k1 k2
      linarith
    rw [computeActiveSet3, bodyBody_direct hp (by simp [hnil]), hnil]
    rfl
  · refine ⟨_, _, rfl, rfl, tiltedR *ᵥ ![3/2, -1, 0], ?_, ?_⟩
    · refine near_corner (d := 0) (v := ![3/2, -1, 0]) (by rw [twoStaples_corners]; simp) ?_
      rw [ballSet3, Set.mem_ofPred_eq]
      simp
    · refine near_corner (d := ![7/2, 0, -3]) (v := ![-3/2, 2, 0]) (by rw [twoStaples_corners]; simp) ?_
      rw [ballSet3, Set.mem_ofPred_eq]
      simp [tiltedR]
      norm_num

end Scisim
