import Verif.Lemmas.RigidContactLists2D
import Verif.Lemmas.BallContactLists
import Verif.Props.RigidContacts2D
/-!
# C57 in the plane: which contacts there are, and C56: what they do to the momenta
-/

namespace Scisim

open Step2

variable {junk : ℝ → ℤ} {s : Step2} {portals : List (PlanarPortal ℝ)} {cs : List Contact2} {c : Contact2}

/-! ## C57: the contact list -/

/-- C57: the list of overlapping boxes, and which bodies they belong to -/
theorem collisionBoxes_get (i : Nat) : s.collisionBoxes[i]? = (s.bodies[i]?).map fun b =>
    toBox (b.geometry.collisionAABB (seg2 s.q0 i) (ang2 s.q0 i) (seg2 s.q1 i) (ang2 s.q1 i)) := by
  unfold collisionBoxes
  rw [List.getElem?_map, List.getElem?_zipIdx]
  cases s.bodies[i]? <;> simp

theorem overlaps_ok (hne : s.bodies ≠ []) (hs : ∀ b ∈ s.bodies, b.Solid) (hsp : Spread s.collisionBoxes 65536) :
    ∃ pairs, getPotentialOverlaps s.collisionBoxes = .ok pairs ∧ IsOverlapSet s.collisionBoxes pairs := by
  refine C14_spread_partial s.collisionBoxes (by simpa [collisionBoxes] using hne) ?_ 65536 (by norm_num) (by norm_num) hsp
  intro box hbox
  obtain ⟨k, hk⟩ := List.getElem?_of_mem hbox
  rw [collisionBoxes_get] at hk
  obtain ⟨b, hb, rfl⟩ := Option.map_eq_some_iff.mp hk
  exact toBox_valid (hs b (List.mem_of_getElem? hb)) _ _ _ _

/-- **C57** (partial). Without portals, for bodies of positive size spread over at most 65536 average sizes, if no two bodies that the program does not
support together have overlapping boxes, the computation succeeds. A pair of bodies is in contact exactly if it is not made of two scripted bodies and the
bodies collide: two circles on their straight paths during the step, other bodies at the end of the step. Two boxes share at most two contacts, others one.
Missing: scenes that are spread out further, and portals. -/
theorem C57_exact_partial (hne : s.bodies ≠ []) (hs : ∀ b ∈ s.bodies, b.Solid) (hsp : Spread s.collisionBoxes 65536)
    (hu : ∀ (i j : Nat) a b A B, i < j → s.bodies[i]? = some a → s.bodies[j]? = some b → s.collisionBoxes[i]? = some A → s.collisionBoxes[j]? = some B →
      Overlap A B → ¬Unsupported2 a b) :
    ∃ cs, s.computeActiveSet2 junk [] = .ok cs ∧ ∀ i j,
      ((i, j) ∈ cs.filterMap Contact2.pair ↔ i < j ∧ ∃ a b, s.bodies[i]? = some a ∧ s.bodies[j]? = some b ∧
        ¬(a.fixed = true ∧ b.fixed = true) ∧ Collide2 s i j a b) ∧
      (cs.filterMap Contact2.pair).count (i, j) ≤ 2 ∧
      ((cs.filterMap Contact2.pair).count (i, j) ≤ 1 ∨
        ∃ a b ra rb, s.bodies[i]? = some a ∧ s.bodies[j]? = some b ∧ a.geometry = .box ra ∧ b.geometry = .box rb) := by
  obtain ⟨pairs, hp, hnd, hset⟩ := overlaps_ok hne hs hsp
  have hspec : ∀ p ∈ pairs, ∃ a b l, p.1 < p.2 ∧ s.bodies[p.1]? = some a ∧ s.bodies[p.2]? = some b ∧ s.dispatchNarrowPhaseCollision p = .ok l ∧
      (∀ c ∈ l, c.pair = some p ∧ c.planePair = none) ∧ (l ≠ [] ↔ ¬(a.fixed = true ∧ b.fixed = true) ∧ Collide2 s p.1 p.2 a b) ∧ l.length ≤ 2 ∧
      (l.length ≤ 1 ∨ BothBoxes a b) := by
    rintro ⟨i, j⟩ hij
    obtain ⟨hlt, A, B, hA, hB, hov⟩ := (hset i j).mp hij
    have hA' := hA
    have hB' := hB
    rw [collisionBoxes_get] at hA' hB'
    obtain ⟨a, ha, _⟩ := Option.map_eq_some_iff.mp hA'
    obtain ⟨b, hb, _⟩ := Option.map_eq_some_iff.mp hB'
    obtain ⟨l, h1, h2, h3, h4, h5⟩ := dispatch_spec hlt ha hb (hs a (List.mem_of_getElem? ha)) (hs b (List.mem_of_getElem? hb))
      (hu i j a b A B hlt ha hb hA hB hov)
    exact ⟨a, b, l, hlt, ha, hb, h1, h2, h3, h4, h5⟩
  obtain ⟨out, hout⟩ := collect_spec s.dispatchNarrowPhaseCollision pairs fun p hpp => by
    obtain ⟨_, _, l, _, _, _, h, _⟩ := hspec p hpp
    exact ⟨l, h⟩
  have hplane : s.computeBodyPlaneActiveSetAllPairs.filterMap Contact2.pair = [] := by
    rw [List.filterMap_eq_nil_iff]
    intro c hc
    unfold computeBodyPlaneActiveSetAllPairs at hc
    simp only [List.mem_flatMap] at hc
    obtain ⟨⟨p, k⟩, _, ⟨b, i⟩, _, hc⟩ := hc
    unfold bodyPlane at hc
    split at hc
    · cases hc
    · split at hc
      · split at hc
        · rw [List.mem_singleton] at hc
          subst hc
          rfl
        · cases hc
      · rw [List.mem_filterMap] at hc
        obtain ⟨e, _, hc⟩ := hc
        dsimp only at hc
        split at hc <;> cases hc
        rfl
  have hcount := collect_count s.dispatchNarrowPhaseCollision Contact2.pair pairs out hnd hout fun p hpp here hh c hc => by
    obtain ⟨_, _, l, _, _, _, h, h2, _⟩ := hspec p hpp
    rw [hh] at h
    cases h
    exact (h2 c hc).1
  refine ⟨out ++ s.computeBodyPlaneActiveSetAllPairs, ?_, fun i j => ?_⟩
  · simp [computeActiveSet2, computeBodyBodyActiveSetSpatialGrid, hp, hout, Outcome.bind]
  rw [List.filterMap_append, hplane, List.append_nil]
  by_cases hij : (i, j) ∈ pairs
  · obtain ⟨a, b, l, hlt, ha, hb, h1, h2, h3, h4, h5⟩ := hspec _ hij
    have hc := (hcount (i, j)).2 l hij h1
    refine ⟨?_, by omega, ?_⟩
    · rw [← List.count_pos_iff, hc]
      constructor
      · intro hpos
        exact ⟨hlt, a, b, ha, hb, h3.mp (List.ne_nil_of_length_pos hpos)⟩
      · rintro ⟨_, a', b', ha', hb', hcol⟩
        rw [ha] at ha'
        rw [hb] at hb'
        cases ha'
        cases hb'
        exact List.length_pos_iff.mpr (h3.mpr hcol)
    · rcases h5 with h5 | ⟨⟨ra, hra⟩, rb, hrb⟩
      · exact Or.inl (by omega)
      · exact Or.inr ⟨a, b, ra, rb, ha, hb, hra, hrb⟩
  · have hc := (hcount (i, j)).1 hij
    refine ⟨?_, by omega, Or.inl (by omega)⟩
    rw [← List.count_pos_iff, hc]
    constructor
    · intro h
      omega
    · rintro ⟨hlt, a, b, ha, hb, _, hcol⟩
      exfalso
      apply hij
      rw [hset]
      exact ⟨hlt, _, _, by rw [collisionBoxes_get, ha]; rfl, by rw [collisionBoxes_get, hb]; rfl,
        collide2_overlap (hs a (List.mem_of_getElem? ha)) (hs b (List.mem_of_getElem? hb)) hcol⟩

/-- C57, finding: if the boxes of two bodies that the program does not support together overlap, even though the bodies do not touch, the program exits. -/
theorem C57_exits (hne : s.bodies ≠ []) (hs : ∀ b ∈ s.bodies, b.Solid) (hsp : Spread s.collisionBoxes 65536) {i j : Nat} {a b : Body2} {A B : Box 2 ℝ}
    (hij : i < j) (ha : s.bodies[i]? = some a) (hb : s.bodies[j]? = some b) (hA : s.collisionBoxes[i]? = some A) (hB : s.collisionBoxes[j]? = some B)
    (hov : Overlap A B) (hu : Unsupported2 a b) : s.computeActiveSet2 junk [] = .exit := by
  obtain ⟨pairs, hp, hnd, hset⟩ := overlaps_ok hne hs hsp
  have hex : collect s.dispatchNarrowPhaseCollision pairs = .exit := by
    refine collect_exit _ _ (fun p hpp => ?_) ⟨(i, j), (hset i j).mpr ⟨hij, A, B, hA, hB, hov⟩, dispatch_exit ha hb hu⟩
    obtain ⟨i', j'⟩ := p
    obtain ⟨hlt, A', B', hA', hB', _⟩ := (hset i' j').mp hpp
    rw [collisionBoxes_get] at hA' hB'
    obtain ⟨a', ha', _⟩ := Option.map_eq_some_iff.mp hA'
    obtain ⟨b', hb', _⟩ := Option.map_eq_some_iff.mp hB'
    by_cases hu' : Unsupported2 a' b'
    · exact Or.inr (dispatch_exit ha' hb' hu')
    · obtain ⟨l, h1, _⟩ := dispatch_spec hlt ha' hb' (hs a' (List.mem_of_getElem? ha')) (hs b' (List.mem_of_getElem? hb')) hu'
      exact Or.inl ⟨l, h1⟩
  simp [computeActiveSet2, computeBodyBodyActiveSetSpatialGrid, hp, hex, Outcome.bind]

/-- **C57** Contacts with planes, with or without portals: a body is in contact with a plane exactly if it is not scripted and has a point on the solid
side of the plane at the end of the step. -/
theorem C57_planes (h : s.computeActiveSet2 junk portals = .ok cs) (hs : ∀ b ∈ s.bodies, b.Solid) (hn : ∀ p ∈ s.planes, p.n.x ^ 2 + p.n.y ^ 2 = 1) (i k : Nat) :
    (i, k) ∈ cs.filterMap Contact2.planePair ↔ ∃ b p, s.bodies[i]? = some b ∧ s.planes[k]? = some p ∧ b.fixed = false ∧
      ∃ z ∈ b.pointsAt s.q1 i, p.n.x * (z.x - p.x.x) + p.n.y * (z.y - p.x.y) ≤ 0 := by
  obtain ⟨l, rfl, hl⟩ := activeSet_split h
  have hl' : l.filterMap Contact2.planePair = [] := by
    rw [List.filterMap_eq_nil_iff]
    exact hl
  rw [List.filterMap_append, hl', List.nil_append, List.mem_filterMap]
  have hone : ∀ (b : Body2) (p : Plane2) (i k : Nat), b.Solid → p.n.x ^ 2 + p.n.y ^ 2 = 1 → (∀ c ∈ s.bodyPlane k p i b, c.planePair = some (i, k)) ∧
      (s.bodyPlane k p i b ≠ [] ↔ b.fixed = false ∧ ∃ z ∈ b.pointsAt s.q1 i, p.n.x * (z.x - p.x.x) + p.n.y * (z.y - p.x.y) ≤ 0) := by
    intro b p i k hb hp
    obtain ⟨g, f⟩ := b
    unfold bodyPlane
    cases f with
    | true => simp
    | false =>
      cases g with
      | circle r =>
        have hd := disc_below (x := seg2 s.q1 i) (px := p.x) (show 0 < r from hb) hp
        dsimp only
        rw [if_neg (by simp)]
        by_cases hle : p.n.dot (seg2 s.q1 i - p.x) ≤ r
        · rw [if_pos hle]
          refine ⟨by simp [Contact2.planePair], ?_⟩
          simp only [ne_eq, List.cons_ne_nil, not_false_eq_true, true_iff, true_and]
          exact hd.mpr hle
        · rw [if_neg hle]
          refine ⟨by simp, ?_⟩
          simp only [ne_eq, not_true_eq_false, true_and, false_iff]
          exact fun hcon => hle (hd.mp hcon)
      | box r =>
        obtain ⟨hx, hy⟩ : 0 < r.x ∧ 0 < r.y := hb
        have hd := box_below (x := seg2 s.q1 i) (n := p.n) (px := p.x) (theta := ang2 s.q1 i) hx hy
        dsimp only
        rw [if_neg (by simp)]
        constructor
        · intro c hc
          rw [List.mem_filterMap] at hc
          obtain ⟨e, _, hc⟩ := hc
          split at hc <;> cases hc
          rfl
        · rw [ne_eq, List.filterMap_eq_nil_iff]
          push Not
          constructor
          · rintro ⟨e, he, hc⟩
            refine ⟨rfl, hd.mpr ⟨e, he, ?_⟩⟩
            by_contra hcon
            exact hc (if_neg hcon)
          · rintro ⟨_, hz⟩
            obtain ⟨e, he, hle⟩ := hd.mp hz
            refine ⟨e, he, ?_⟩
            rw [if_pos hle]
            simp
  unfold computeBodyPlaneActiveSetAllPairs
  simp only [List.mem_flatMap]
  constructor
  · rintro ⟨c, ⟨⟨p, k'⟩, hp, ⟨b, i'⟩, hb, hc⟩, hcp⟩
    rw [List.mk_mem_zipIdx_iff_getElem?] at hp hb
    obtain ⟨h1, h2⟩ := hone b p i' k' (hs b (List.mem_of_getElem? hb)) (hn p (List.mem_of_getElem? hp))
    rw [h1 c hc] at hcp
    cases hcp
    exact ⟨b, p, hb, hp, h2.mp (List.ne_nil_of_mem hc)⟩
  · rintro ⟨b, p, hb, hp, hz⟩
    obtain ⟨h1, h2⟩ := hone b p i k (hs b (List.mem_of_getElem? hb)) (hn p (List.mem_of_getElem? hp))
    obtain ⟨c, hc⟩ := List.exists_mem_of_ne_nil _ (h2.mpr hz)
    exact ⟨c, ⟨(p, k), by rw [List.mk_mem_zipIdx_iff_getElem?]; exact hp, (b, i), by rw [List.mk_mem_zipIdx_iff_getElem?]; exact hb, hc⟩, h1 c hc⟩

/-- **C57** The contacts of a box with a plane are, each once, the corners of the box that are on the solid side of the plane; a circle has one contact. -/
theorem C57_plane_corners (h : s.computeActiveSet2 junk portals = .ok cs) (hs : ∀ b ∈ s.bodies, b.Solid) :
    (cs.filter fun c => c.planePair.isSome).Nodup ∧
    ∀ i k arm p, .planeBody i arm p k ∈ cs ↔ s.planes[k]? = some p ∧ ∃ b r, s.bodies[i]? = some b ∧ b.fixed = false ∧ b.geometry = .box r ∧
      |arm.x| = r.x ∧ |arm.y| = r.y ∧
      p.n.x * (s.q1 (3 * i) + arm.x * Real.cos (s.q1 (3 * i + 2)) - arm.y * Real.sin (s.q1 (3 * i + 2)) - p.x.x) +
        p.n.y * (s.q1 (3 * i + 1) + arm.x * Real.sin (s.q1 (3 * i + 2)) + arm.y * Real.cos (s.q1 (3 * i + 2)) - p.x.y) ≤ 0 := by
  obtain ⟨l, rfl, hl⟩ := activeSet_split h
  have hform : ∀ c ∈ s.computeBodyPlaneActiveSetAllPairs, ∃ ik, c.planePair = some ik := by
    intro c hc
    unfold computeBodyPlaneActiveSetAllPairs at hc
    simp only [List.mem_flatMap] at hc
    obtain ⟨⟨p, k⟩, _, ⟨b, i⟩, _, hc⟩ := hc
    unfold bodyPlane at hc
    split at hc
    · cases hc
    · split at hc
      · split at hc
        · rw [List.mem_singleton] at hc
          subst hc
          exact ⟨_, rfl⟩
        · cases hc
      · rw [List.mem_filterMap] at hc
        obtain ⟨e, _, hc⟩ := hc
        dsimp only at hc
        split at hc <;> cases hc
        exact ⟨_, rfl⟩
  constructor
  · have h1 : l.filter (fun c => c.planePair.isSome) = [] := by
      rw [List.filter_eq_nil_iff]
      intro c hc
      simp [hl c hc]
    have h2 : s.computeBodyPlaneActiveSetAllPairs.filter (fun c => c.planePair.isSome) = s.computeBodyPlaneActiveSetAllPairs := by
      rw [List.filter_eq_self]
      intro c hc
      obtain ⟨ik, hik⟩ := hform c hc
      simp [hik]
    rw [List.filter_append, h1, h2, List.nil_append]
    have hbp : ∀ (p : Plane2) (k : Nat) (b : Body2) (i : Nat), b.Solid → (s.bodyPlane k p i b).Nodup ∧ ∀ c ∈ s.bodyPlane k p i b, c.planePair = some (i, k) := by
      intro p k b i hb
      unfold bodyPlane
      obtain ⟨g, f⟩ := b
      dsimp only
      by_cases hf : f = true
      · rw [if_pos hf]; simp
      rw [if_neg hf]
      cases g with
      | circle r => dsimp only; split <;> simp [Contact2.planePair]
      | box r =>
        obtain ⟨hx, hy⟩ : 0 < r.x ∧ 0 < r.y := hb
        dsimp only
        constructor
        · refine List.Nodup.filterMap ?_ ?_
          · intro e e' c he he'
            rw [Option.mem_def] at he he'
            split at he
            · split at he'
              · have heq := (Option.some.inj he).trans (Option.some.inj he').symm
                injection heq with _ harm
                injection harm with h1 h2
                exact Prod.ext (mul_right_cancel₀ hx.ne' h1) (mul_right_cancel₀ hy.ne' h2)
              · cases he'
            · cases he
          · simp
            norm_num
        · intro c hc
          rw [List.mem_filterMap] at hc
          obtain ⟨e, _, hc⟩ := hc
          split at hc <;> cases hc
          rfl
    have hidx : ∀ {α : Type} (l : List α), l.zipIdx.Pairwise fun a b => a.2 ≠ b.2 := by
      intro α l
      have : (l.zipIdx.map Prod.snd).Nodup := by rw [List.zipIdx_map_snd]; exact List.nodup_range'
      exact List.pairwise_map.mp this
    have hmem : ∀ {p : Plane2} {k : Nat} {c : Contact2}, c ∈ s.bodies.zipIdx.flatMap (fun (b, i) => s.bodyPlane k p i b) → ∃ i, c.planePair = some (i, k) := by
      intro p k c hc
      obtain ⟨⟨b, i⟩, hb, hc⟩ := List.mem_flatMap.mp hc
      rw [List.mk_mem_zipIdx_iff_getElem?] at hb
      exact ⟨i, (hbp p k b i (hs b (List.mem_of_getElem? hb))).2 c hc⟩
    unfold computeBodyPlaneActiveSetAllPairs
    rw [List.nodup_flatMap]
    constructor
    · rintro ⟨p, k⟩ _
      rw [List.nodup_flatMap]
      constructor
      · rintro ⟨b, i⟩ hb
        rw [List.mk_mem_zipIdx_iff_getElem?] at hb
        exact (hbp p k b i (hs b (List.mem_of_getElem? hb))).1
      · refine (hidx s.bodies).imp_of_mem ?_
        rintro ⟨b, i⟩ ⟨b', i'⟩ hb hb' hne c hc hc'
        rw [List.mk_mem_zipIdx_iff_getElem?] at hb hb'
        have e1 := (hbp p k b i (hs b (List.mem_of_getElem? hb))).2 c hc
        have e2 := (hbp p k b' i' (hs b' (List.mem_of_getElem? hb'))).2 c hc'
        rw [e1] at e2
        cases e2
        exact hne rfl
    · refine (hidx s.planes).imp ?_
      rintro ⟨p, k⟩ ⟨p', k'⟩ hne c hc hc'
      obtain ⟨i, e1⟩ := hmem hc
      obtain ⟨i', e2⟩ := hmem hc'
      rw [e1] at e2
      cases e2
      exact hne rfl
  · intro i k arm p
    rw [List.mem_append]
    have hnl : Contact2.planeBody i arm p k ∉ l := by
      intro hc
      cases hl _ hc
    have hcorner : ∀ (e : ℝ × ℝ) (r : V2 ℝ), p.n.dot (seg2 s.q1 i + (rotation2D (ang2 s.q1 i)).mulVec ⟨e.1 * r.x, e.2 * r.y⟩ - p.x) =
        p.n.x * (s.q1 (3 * i) + e.1 * r.x * Real.cos (s.q1 (3 * i + 2)) - e.2 * r.y * Real.sin (s.q1 (3 * i + 2)) - p.x.x) +
        p.n.y * (s.q1 (3 * i + 1) + e.1 * r.x * Real.sin (s.q1 (3 * i + 2)) + e.2 * r.y * Real.cos (s.q1 (3 * i + 2)) - p.x.y) := by
      intro e r
      simp [V2.dot, rotation2D, M22.mulVec, seg2, ang2]
      ring
    constructor
    · rintro (hc | hc)
      · exact absurd hc hnl
      unfold computeBodyPlaneActiveSetAllPairs at hc
      simp only [List.mem_flatMap] at hc
      obtain ⟨⟨p', k'⟩, hp, ⟨b, i'⟩, hb, hc⟩ := hc
      rw [List.mk_mem_zipIdx_iff_getElem?] at hp hb
      have hsb := hs b (List.mem_of_getElem? hb)
      obtain ⟨g, f⟩ := b
      unfold bodyPlane at hc
      dsimp only at hc
      by_cases hf : f = true
      · rw [if_pos hf] at hc; cases hc
      rw [if_neg hf] at hc
      cases g with
      | circle r =>
        dsimp only at hc
        split at hc
        · rw [List.mem_singleton] at hc; cases hc
        · cases hc
      | box r =>
        obtain ⟨hx, hy⟩ : 0 < r.x ∧ 0 < r.y := hsb
        dsimp only at hc
        rw [List.mem_filterMap] at hc
        obtain ⟨e, he, hc⟩ := hc
        by_cases hle : p'.n.dot (seg2 s.q1 i' + (rotation2D (ang2 s.q1 i')).mulVec ⟨e.1 * r.x, e.2 * r.y⟩ - p'.x) ≤ 0
        · rw [if_pos hle] at hc
          have heq := Option.some.inj hc
          injection heq with h1 h2 h3 h4
          subst h1 h3 h4 h2
          rw [hcorner] at hle
          have he' : |e.1| = 1 ∧ |e.2| = 1 := by
            simp only [List.mem_cons, List.not_mem_nil, or_false] at he
            rcases he with rfl | rfl | rfl | rfl <;> simp
          refine ⟨hp, _, r, hb, by simpa using hf, rfl, ?_, ?_, hle⟩
          · rw [abs_mul, he'.1, one_mul, abs_of_pos hx]
          · rw [abs_mul, he'.2, one_mul, abs_of_pos hy]
        · rw [if_neg hle] at hc
          cases hc
    · rintro ⟨hp, ⟨g, f⟩, r, hb, hf, hg, hax, hay, hle⟩
      right
      dsimp only at hf hg
      subst hf hg
      obtain ⟨hx, hy⟩ : 0 < r.x ∧ 0 < r.y := hs _ (List.mem_of_getElem? hb)
      have hsign : ∀ (a r : ℝ), 0 < r → |a| = r → ∃ e : ℝ, (e = -1 ∨ e = 1) ∧ a = e * r := by
        intro a r hr ha
        rcases abs_eq hr.le |>.mp ha with h | h
        · exact ⟨1, Or.inr rfl, by rw [h]; ring⟩
        · exact ⟨-1, Or.inl rfl, by rw [h]; ring⟩
      obtain ⟨e1, he1, ha1⟩ := hsign _ _ hx hax
      obtain ⟨e2, he2, ha2⟩ := hsign _ _ hy hay
      obtain ⟨ax, ay⟩ := arm
      dsimp only at ha1 ha2 hle
      subst ha1 ha2
      unfold computeBodyPlaneActiveSetAllPairs
      simp only [List.mem_flatMap]
      refine ⟨(p, k), by rw [List.mk_mem_zipIdx_iff_getElem?]; exact hp, (_, i), by rw [List.mk_mem_zipIdx_iff_getElem?]; exact hb, ?_⟩
      unfold bodyPlane
      dsimp only
      rw [if_neg (by simp), List.mem_filterMap]
      refine ⟨(e1, e2), ?_, ?_⟩
      · rcases he1 with rfl | rfl <;> rcases he2 with rfl | rfl <;> simp
      · rw [if_pos]
        rw [hcorner (e1, e2)]
        exact hle

/-- The set moved by a vector -/
def moved (S : Set (V2 ℝ)) (d : V2 ℝ) : Set (V2 ℝ) := {z | ∃ y ∈ S, z = y + d}

/-- Along `n` the first set leaves the second one: moved far enough they are apart, and stay apart when moved further. -/
def LeavesAlong (n : V2 ℝ) (S T : Set (V2 ℝ)) : Prop := ∃ D : ℝ, 0 ≤ D ∧ ∀ e > D, ¬∃ z, z ∈ moved S (e • n) ∧ z ∈ T

theorem mem_moved_disc (x : V2 ℝ) (r : ℝ) (d z : V2 ℝ) : z ∈ moved (discSet x r) d ↔ z ∈ discSet (x + d) r := by
  constructor
  · rintro ⟨y, hy, rfl⟩
    simp only [discSet, Set.mem_ofPred_eq, V2.add_x, V2.add_y] at hy ⊢
    refine le_trans (le_of_eq ?_) hy
    ring
  · intro hz
    refine ⟨z - d, ?_, by ext <;> simp⟩
    simp only [discSet, Set.mem_ofPred_eq, V2.add_x, V2.add_y, V2.sub_x, V2.sub_y] at hz ⊢
    refine le_trans (le_of_eq ?_) hz
    ring

theorem mem_moved_box (x : V2 ℝ) (th : ℝ) (r d z : V2 ℝ) : z ∈ moved (boxSet x th r) d ↔ z ∈ boxSet (x + d) th r := by
  constructor
  · rintro ⟨y, ⟨a, b, ha, hb, rfl⟩, rfl⟩
    refine ⟨a, b, ha, hb, ?_⟩
    ext <;> simp <;> ring
  · rintro ⟨a, b, ha, hb, rfl⟩
    refine ⟨_, ⟨a, b, ha, hb, rfl⟩, ?_⟩
    ext <;> simp <;> ring

theorem dispatch_oriented (hs : ∀ b ∈ s.bodies, b.Solid) {p : Nat × Nat} {l : List Contact2} (h : s.dispatchNarrowPhaseCollision p = .ok l) (hc : c ∈ l) :
    (∀ i j n r0 r1, c = .bodyBody i j n r0 r1 → ∃ a b P, s.bodies[i]? = some a ∧ s.bodies[j]? = some b ∧ n.x ^ 2 + n.y ^ 2 = 1 ∧
      r0 = P - seg2 s.q0 i ∧ r1 = P - seg2 s.q0 j ∧ LeavesAlong n (a.pointsAt s.q1 i) (b.pointsAt s.q1 j)) ∧
    (∀ i r n k x v omega, c = .kinematicCircle i r n k x v omega → ∃ a b, s.bodies[i]? = some a ∧ a.geometry = .circle r ∧ s.bodies[k]? = some b ∧
      b.fixed = true ∧ match b.geometry with
        | .circle _ => n = (seg2 s.q0 i - seg2 s.q0 k).normalized
        | .box _ => n.x ^ 2 + n.y ^ 2 = 1 ∧ LeavesAlong n (a.pointsAt s.q1 i) (b.pointsAt s.q1 k)) := by
  have hord : ∀ {i j : Nat} {a b : Body2}, s.bodies[i]? = some a → s.bodies[j]? = some b → a.fixed = false → s.dispatchOrdered i j a b = .ok l →
      (∀ i j n r0 r1, c = .bodyBody i j n r0 r1 → ∃ a b P, s.bodies[i]? = some a ∧ s.bodies[j]? = some b ∧ n.x ^ 2 + n.y ^ 2 = 1 ∧
        r0 = P - seg2 s.q0 i ∧ r1 = P - seg2 s.q0 j ∧ LeavesAlong n (a.pointsAt s.q1 i) (b.pointsAt s.q1 j)) ∧
      (∀ i r n k x v omega, c = .kinematicCircle i r n k x v omega → ∃ a b, s.bodies[i]? = some a ∧ a.geometry = .circle r ∧ s.bodies[k]? = some b ∧
        b.fixed = true ∧ match b.geometry with
          | .circle _ => n = (seg2 s.q0 i - seg2 s.q0 k).normalized
          | .box _ => n.x ^ 2 + n.y ^ 2 = 1 ∧ LeavesAlong n (a.pointsAt s.q1 i) (b.pointsAt s.q1 k)) := by
    intro i j a b ha hb hf h
    have hbc : ∀ {ic ib : Nat} {a b : Body2} {r : ℝ} {rb : V2 ℝ}, s.bodies[ic]? = some a → s.bodies[ib]? = some b → a.geometry = .circle r →
        b.geometry = .box rb → s.boxCircleNarrowPhaseCollision ic ib a b r rb = .ok l →
        (∀ i j n r0 r1, c = .bodyBody i j n r0 r1 → ∃ a b P, s.bodies[i]? = some a ∧ s.bodies[j]? = some b ∧ n.x ^ 2 + n.y ^ 2 = 1 ∧
          r0 = P - seg2 s.q0 i ∧ r1 = P - seg2 s.q0 j ∧ LeavesAlong n (a.pointsAt s.q1 i) (b.pointsAt s.q1 j)) ∧
        (∀ i r n k x v omega, c = .kinematicCircle i r n k x v omega → ∃ a b, s.bodies[i]? = some a ∧ a.geometry = .circle r ∧ s.bodies[k]? = some b ∧
          b.fixed = true ∧ match b.geometry with
            | .circle _ => n = (seg2 s.q0 i - seg2 s.q0 k).normalized
            | .box _ => n.x ^ 2 + n.y ^ 2 = 1 ∧ LeavesAlong n (a.pointsAt s.q1 i) (b.pointsAt s.q1 k)) := by
      intro ic ib a b r rb ha hb hga hgb h
      have hsa := hs a (List.mem_of_getElem? ha)
      have hsb := hs b (List.mem_of_getElem? hb)
      obtain ⟨ga, fa⟩ := a
      obtain ⟨gb, fb⟩ := b
      dsimp only at hga hgb
      subst hga hgb
      have hr : (0 : ℝ) < r := hsa
      obtain ⟨hx, hy⟩ : 0 < rb.x ∧ 0 < rb.y := hsb
      unfold boxCircleNarrowPhaseCollision at h
      split at h
      · cases h
      split at h
      · cases h; cases hc
      · rename_i n P hact
        obtain ⟨hn, d, hd, _, hleave, _⟩ := C45_normal _ _ _ _ _ hr.le hx hy n P hact
        have hL : LeavesAlong n (Body2.pointsAt ⟨.circle r, fa⟩ s.q1 ic) (Body2.pointsAt ⟨.box rb, fb⟩ s.q1 ib) := by
          refine ⟨d, hd, fun e he => ?_⟩
          rintro ⟨z, hz, hz'⟩
          exact hleave e he ⟨z, (mem_moved_disc _ _ _ _).mp hz, hz'⟩
        dsimp only at h
        split at h
        · split at h <;> cases h <;> rw [List.mem_singleton] at hc <;> subst hc
          · refine ⟨fun i j n' r0 r1 he => ?_, fun i r n' k x v omega he => (by cases he)⟩
            cases he
            exact ⟨_, _, P, ha, hb, hn, rfl, rfl, hL⟩
          · refine ⟨fun i j n' r0 r1 he => ?_, fun i r n' k x v omega he => (by cases he)⟩
            cases he
            refine ⟨_, _, P, hb, ha, by simpa using hn, rfl, rfl, d, hd, fun e he => ?_⟩
            rintro ⟨z, ⟨y, hy1, rfl⟩, hz'⟩
            refine hleave e he ⟨y, (mem_moved_disc _ _ _ _).mp ⟨y + e • -n, hz', ?_⟩, hy1⟩
            ext <;> simp
        · rename_i hfb
          cases h
          rw [List.mem_singleton] at hc
          subst hc
          refine ⟨fun i j n' r0 r1 he => (by cases he), fun i r n' k x v omega he => ?_⟩
          cases he
          exact ⟨_, _, ha, rfl, hb, by simpa using hfb, hn, hL⟩
    have hsa := hs a (List.mem_of_getElem? ha)
    have hsb := hs b (List.mem_of_getElem? hb)
    obtain ⟨ga, fa⟩ := a
    obtain ⟨gb, fb⟩ := b
    cases ga with
    | circle ra =>
      cases gb with
      | circle rb =>
        cases h
        unfold circleCircleNarrowPhaseCollision at hc
        dsimp only at hc
        split at hc
        · cases hc
        · split at hc
          · rw [List.mem_singleton] at hc
            subst hc
            exact ⟨fun i j n' r0 r1 he => (by cases he), fun i r n' k x v omega he => (by cases he)⟩
          · rename_i hfb
            rw [List.mem_singleton] at hc
            subst hc
            refine ⟨fun i j n' r0 r1 he => (by cases he), fun i r n' k x v omega he => ?_⟩
            cases he
            exact ⟨_, _, ha, rfl, hb, by simpa using hfb, rfl⟩
      | box rb => exact hbc ha hb rfl rfl h
    | box ra =>
      cases gb with
      | circle rb => exact hbc hb ha rfl rfl h
      | box rb =>
        obtain ⟨hx, hy⟩ : 0 < ra.x ∧ 0 < ra.y := hsa
        obtain ⟨hx', hy'⟩ : 0 < rb.x ∧ 0 < rb.y := hsb
        simp only [dispatchOrdered] at h
        unfold boxBoxNarrowPhaseCollision at h
        split at h
        · cases h
        · obtain ⟨⟨n, pts⟩, hact, h⟩ := Outcome.bind_ok_iff.mp h
          cases h
          obtain ⟨P, hP, rfl⟩ := List.mem_map.mp hc
          refine ⟨fun i j n' r0 r1 he => ?_, fun i r n' k x v omega he => (by cases he)⟩
          cases he
          obtain ⟨hn, _, D, hD, hleave, _⟩ := C46_penetration _ _ ra _ _ rb 0 n pts hx.le hy.le hx'.le hy'.le hact (List.ne_nil_of_mem hP)
          refine ⟨_, _, P, ha, hb, hn, rfl, rfl, D, hD, fun e he => ?_⟩
          rintro ⟨z, hz, hz'⟩
          exact hleave e he ⟨z, (mem_moved_box _ _ _ _ _).mp hz, hz'⟩
  unfold dispatchNarrowPhaseCollision at h
  split at h
  · rename_i a b ha hb
    split at h
    · cases h; cases hc
    · rename_i hboth
      split at h
      · rename_i hfa
        exact hord hb ha (by simpa [hfa] using hboth) h
      · rename_i hfa
        exact hord ha hb (by simpa using hfa) h
  · cases h

/-- **C57** Contacts of two free bodies, other than two circles, and of a circle with a scripted body: the normal points from the second body to the first.
It is a unit vector along which the first body leaves the second one (as they are at the end of the step) and, between two free bodies, both arms
end in the same point; for a scripted circle it is the direction between the centres at the start of the step. -/
theorem C57_normals (h : s.computeActiveSet2 junk portals = .ok cs) (hs : ∀ b ∈ s.bodies, b.Solid) :
    (∀ i j n r0 r1, .bodyBody i j n r0 r1 ∈ cs → ∃ a b P, s.bodies[i]? = some a ∧ s.bodies[j]? = some b ∧ n.x ^ 2 + n.y ^ 2 = 1 ∧
      r0 = P - seg2 s.q0 i ∧ r1 = P - seg2 s.q0 j ∧ LeavesAlong n (a.pointsAt s.q1 i) (b.pointsAt s.q1 j)) ∧
    (∀ i r n k x v omega, .kinematicCircle i r n k x v omega ∈ cs → ∃ a b, s.bodies[i]? = some a ∧ a.geometry = .circle r ∧ s.bodies[k]? = some b ∧
      b.fixed = true ∧ match b.geometry with
        | .circle _ => n = (seg2 s.q0 i - seg2 s.q0 k).normalized
        | .box _ => n.x ^ 2 + n.y ^ 2 = 1 ∧ LeavesAlong n (a.pointsAt s.q1 i) (b.pointsAt s.q1 k)) := by
  have hfrom : ∀ c ∈ cs, c.Direct → c.planePair = none → ∃ p l, s.dispatchNarrowPhaseCollision p = .ok l ∧ c ∈ l := by
    intro c hc hd hpl
    unfold computeActiveSet2 at h
    obtain ⟨l, h1, h⟩ := Outcome.bind_ok_iff.mp h
    cases h
    rcases List.mem_append.mp hc with hc | hc
    · split at h1
      · unfold computeBodyBodyActiveSetSpatialGrid at h1
        obtain ⟨pairs, _, h1⟩ := Outcome.bind_ok_iff.mp h1
        obtain ⟨p, _, here, h2, h3⟩ := ((collect_ok h1).1 c).mp hc
        exact ⟨p, here, h2, h3⟩
      · unfold computeBodyBodyActiveSetSpatialGridWithPortals at h1
        dsimp only at h1
        obtain ⟨pairs, _, h1⟩ := Outcome.bind_ok_iff.mp h1
        obtain ⟨r, hr, h1⟩ := Outcome.bind_ok_iff.mp h1
        obtain ⟨tl, ht, h1⟩ := Outcome.bind_ok_iff.mp h1
        cases h1
        rcases List.mem_append.mp hc with hc | hc
        · rcases ((classifyAll_ok hr).1 c).mp hc with hc | ⟨p, _, r', h2, h3⟩
          · cases hc
          · rcases classify2_contacts h2 with h4 | h4
            · rw [h4] at h3; cases h3
            · exact ⟨p, _, h4, h3⟩
        · exfalso
          obtain ⟨t, _, here, h2, h3⟩ := ((collect_ok ht).1 c).mp hc
          exact dispatchTeleported_not_direct h2 h3 hd
    · exfalso
      obtain ⟨ik, hik⟩ := planeContact_pair hc
      rw [hik] at hpl
      cases hpl
  constructor
  · intro i j n r0 r1 hc
    obtain ⟨p, l, h1, h2⟩ := hfrom _ hc trivial rfl
    exact (dispatch_oriented hs h1 h2).1 i j n r0 r1 rfl
  · intro i r n k x v omega hc
    obtain ⟨p, l, h1, h2⟩ := hfrom _ hc trivial rfl
    exact (dispatch_oriented hs h1 h2).2 i r n k x v omega rfl

/-! ## C56: momentum -/

/-- **C56** A contact that says that it conserves linear (angular) momentum does: whatever its impulse is, the sum over all bodies does not change. -/
theorem C56_conserves (h : s.computeActiveSet2 junk portals = .ok cs) (hc : c ∈ cs) (alpha beta : ℝ) :
    (c.conservesTranslationalMomentum = true → totalLinear s.bodies.length (contactImpulse c s.q0 alpha beta) = 0) ∧
    (c.conservesAngularMomentumUnderImpact = true → totalAngular s.bodies.length s.q0 (contactImpulse c s.q0 alpha 0) = 0) ∧
    (c.conservesAngularMomentumUnderImpactAndFriction = true → totalAngular s.bodies.length s.q0 (contactImpulse c s.q0 alpha beta) = 0) := by
  cases made_activeSet h hc with
  | bodyBody i j p n hi hj =>
    simp only [Contact2.mkBodyBody, contactImpulse, Contact2.simulatedBodies, Contact2.evalH]
    rw [totalLinear_sub, totalLinear_row _ _ hi.lt, totalLinear_row _ _ hj.lt, totalAngular_sub, totalAngular_row _ _ hi.lt, totalAngular_row _ _ hj.lt,
      totalAngular_sub, totalAngular_row _ _ hi.lt, totalAngular_row _ _ hj.lt]
    refine ⟨fun _ => by ext <;> simp, fun _ => ?_, fun _ => ?_⟩ <;> simp [Contact2.normal, Contact2.tangent, V2.cross, seg2] <;> ring
  | circleCircle i j ra rb hi hj =>
    have hx := normalized_cross (seg2 s.q0 i - seg2 s.q0 j) 1
    generalize hn : (seg2 s.q0 i - seg2 s.q0 j).normalized = n at hx
    simp only [V2.cross, V2.smul_x, V2.smul_y, V2.sub_x, V2.sub_y, seg2] at hx
    simp only [contactImpulse, Contact2.simulatedBodies, Contact2.evalH]
    rw [totalLinear_sub, totalLinear_row _ _ hi.lt, totalLinear_row _ _ hj.lt, totalAngular_sub, totalAngular_row _ _ hi.lt, totalAngular_row _ _ hj.lt,
      totalAngular_sub, totalAngular_row _ _ hi.lt, totalAngular_row _ _ hj.lt]
    refine ⟨fun _ => by ext <;> simp, fun _ => ?_, fun _ => ?_⟩ <;> simp [Contact2.normal, Contact2.tangent, V2.cross, seg2] <;>
      linear_combination alpha * hx
  | kinematicCircle i k r n hi _ => exact ⟨fun h => (by cases h), fun h => (by cases h), fun h => (by cases h)⟩
  | planeCircle i k r p hi hp => exact ⟨fun h => (by cases h), fun h => (by cases h), fun h => (by cases h)⟩
  | planeBody i k arm p hi hp => exact ⟨fun h => (by cases h), fun h => (by cases h), fun h => (by cases h)⟩
  | teleported i j x0 x1 ra rb hi hj =>
    refine ⟨fun _ => ?_, fun h => (by cases h), fun h => (by cases h)⟩
    simp only [Contact2.mkTeleported, contactImpulse, Contact2.simulatedBodies, Contact2.evalH]
    rw [totalLinear_sub, totalLinear_row _ _ hi.lt, totalLinear_row _ _ hj.lt]
    ext <;> simp
  | kick i j x0 x1 ra rb k hi hj =>
    refine ⟨fun _ => ?_, fun h => (by cases h), fun h => (by cases h)⟩
    simp only [Contact2.mkKick, contactImpulse, Contact2.simulatedBodies, Contact2.evalH]
    rw [totalLinear_sub, totalLinear_row _ _ hi.lt, totalLinear_row _ _ hj.lt]
    ext <;> simp

/-- The momenta after the impulses of a list of contacts: each with its coordinates in the contact frame -/
noncomputable def afterContacts (q : Dofs) (m : Dofs) (l : List (Contact2 × ℝ × ℝ)) : Dofs :=
  fun k => m k + (l.map fun e => contactImpulse e.1 q e.2.1 e.2.2 k).sum

/-- **C56** A step in which every contact says that it conserves momentum, conserves it, whatever the impulses are. -/
theorem C56_step (h : s.computeActiveSet2 junk portals = .ok cs) (l : List (Contact2 × ℝ × ℝ)) (hl : ∀ e ∈ l, e.1 ∈ cs) (m : Dofs) :
    ((∀ e ∈ l, e.1.conservesTranslationalMomentum = true) →
      totalLinear s.bodies.length (afterContacts s.q0 m l) = totalLinear s.bodies.length m) ∧
    ((∀ e ∈ l, e.1.conservesAngularMomentumUnderImpact = true ∧ e.2.2 = 0) →
      totalAngular s.bodies.length s.q0 (afterContacts s.q0 m l) = totalAngular s.bodies.length s.q0 m) ∧
    ((∀ e ∈ l, e.1.conservesAngularMomentumUnderImpactAndFriction = true) →
      totalAngular s.bodies.length s.q0 (afterContacts s.q0 m l) = totalAngular s.bodies.length s.q0 m) := by
  induction l generalizing m with
  | nil =>
    have hnil : afterContacts s.q0 m [] = m := by
      funext k
      simp [afterContacts]
    simp [hnil]
  | cons e l ih =>
    have hstep : afterContacts s.q0 m (e :: l) = afterContacts s.q0 (fun k => m k + contactImpulse e.1 s.q0 e.2.1 e.2.2 k) l := by
      funext k
      simp [afterContacts, add_assoc]
    have hlin : ∀ f g : Dofs, totalLinear s.bodies.length (fun k => f k + g k) = totalLinear s.bodies.length f + totalLinear s.bodies.length g := by
      intro f g
      ext <;> simp [totalLinear, Finset.sum_add_distrib]
    have hang : ∀ f g : Dofs, totalAngular s.bodies.length s.q0 (fun k => f k + g k) =
        totalAngular s.bodies.length s.q0 f + totalAngular s.bodies.length s.q0 g := by
      intro f g
      unfold totalAngular
      rw [← Finset.sum_add_distrib]
      refine Finset.sum_congr rfl fun b _ => ?_
      ring
    obtain ⟨i1, i2, i3⟩ := ih (fun e' he' => hl e' (by simp [he'])) (fun k => m k + contactImpulse e.1 s.q0 e.2.1 e.2.2 k)
    have hcons := C56_conserves h (hl e (by simp)) e.2.1 e.2.2
    rw [hstep]
    refine ⟨fun hall => ?_, fun hall => ?_, fun hall => ?_⟩
    · rw [i1 fun e' he' => hall e' (by simp [he']), hlin, hcons.1 (hall e (by simp))]
      ext <;> simp
    · have hz := (hall e (by simp)).2
      rw [i2 fun e' he' => hall e' (by simp [he']), hang, hz, hcons.2.1 (hall e (by simp)).1, add_zero]
    · rw [i3 fun e' he' => hall e' (by simp [he']), hang, hcons.2.2 (hall e (by simp)), add_zero]

/-- **C56** A contact with a plane or a scripted body changes the total linear momentum by its impulse. -/
theorem C56_scripted (h : s.computeActiveSet2 junk portals = .ok cs) (hc : c ∈ cs) (hf : c.conservesTranslationalMomentum = false) (alpha beta : ℝ) :
    totalLinear s.bodies.length (contactImpulse c s.q0 alpha beta) = alpha • c.normal + beta • c.tangent := by
  cases made_activeSet h hc with
  | bodyBody i j p n hi hj => cases hf
  | circleCircle i j ra rb hi hj => cases hf
  | kinematicCircle i k r n hi _ => exact totalLinear_row _ _ hi.lt _ _ _
  | planeCircle i k r p hi hp => exact totalLinear_row _ _ hi.lt _ _ _
  | planeBody i k arm p hi hp => exact totalLinear_row _ _ hi.lt _ _ _
  | teleported i j x0 x1 ra rb hi hj => cases hf
  | kick i j x0 x1 ra rb k hi hj => cases hf

/-- **C56** A contact through a portal changes the total angular momentum by the torque of its impulse over the distance by which the portal moved the
images: it says that it does not conserve it, and does not unless the displacements cancel. -/
theorem C56_portal (h : s.computeActiveSet2 junk portals = .ok cs) (hc : c ∈ cs) (hd : ¬c.Direct) :
    c.conservesAngularMomentumUnderImpact = false ∧ c.conservesAngularMomentumUnderImpactAndFriction = false ∧
    ∃ u w : Image, c.simulatedBodies = (u.body, some w.body) ∧ ∀ alpha beta,
      totalAngular s.bodies.length s.q0 (contactImpulse c s.q0 alpha beta) =
        ((w.centre junk portals s.q0 - seg2 s.q0 w.body) - (u.centre junk portals s.q0 - seg2 s.q0 u.body)).cross
          (alpha • c.normal + beta • c.tangent) := by
  refine ⟨?_, ?_, ?_⟩
  · cases c <;> first | rfl | exact absurd trivial hd
  · cases c <;> first | rfl | exact absurd trivial hd
  · obtain ⟨u, w, a, b, ra, rb, ha, hb, _, _, _, hbod, hn, hP⟩ := C55_teleported h hc hd
    refine ⟨u, w, hbod, fun alpha beta => ?_⟩
    have hu : u.body < s.bodies.length := (List.getElem?_eq_some_iff.mp ha).1
    have hw : w.body < s.bodies.length := (List.getElem?_eq_some_iff.mp hb).1
    rw [(hP _ rfl).1 alpha beta, totalAngular_sub]
    have hang : ∀ (x P f : V2 ℝ) (i : Nat), i < s.bodies.length → totalAngular s.bodies.length s.q0 (impulseAbout x i P f) =
        s.q0 (3 * i) * f.y - s.q0 (3 * i + 1) * f.x + ((P.x - x.x) * f.y - (P.y - x.y) * f.x) := by
      intro x P f i hi
      have := totalAngular_row s.bodies.length i hi s.q0 (⟨f, (P.x - x.x) * f.y - (P.y - x.y) * f.x⟩, ⟨f, (P.x - x.x) * f.y - (P.y - x.y) * f.x⟩) 1 0
      rw [rowImpulse_eq i f f x P _ _ 1 0 rfl rfl] at this
      have hf : (1 : ℝ) • f + (0 : ℝ) • f = f := by ext <;> simp
      rw [hf] at this
      rw [this]
      ring
    rw [hang _ _ _ _ hu, hang _ _ _ _ hw]
    simp [V2.cross, seg2]
    ring

/-! ## Examples -/

theorem stackOfDiscs_boxes : stackOfDiscs.collisionBoxes = [⟨![-1, 0], ![1, 2]⟩, ⟨![-1, 2], ![1, 4]⟩] := by
  simp [collisionBoxes, stackOfDiscs, toBox, Geometry2D.collisionAABB, circleCollisionAABB, seg2]
  norm_num

theorem stackOfDiscs_spread : Spread stackOfDiscs.collisionBoxes 65536 := by
  rw [stackOfDiscs_boxes]
  have hw : cellWidth ([⟨![-1, 0], ![1, 2]⟩, ⟨![-1, 2], ![1, 4]⟩] : List (Box 2 ℝ)) = 2 := by
    have h : (fun i => ![(1 : ℝ), 2] i - ![-1, 0] i + (![1, 4] i - ![-1, 2] i)) = fun _ => 4 := by
      funext i; fin_cases i <;> simp <;> norm_num
    simp [cellWidth]
    rw [h]
    simp [maxCoeff, Fin.tail]
    norm_num
  intro a ha b hb i
  rw [hw]
  simp only [List.mem_cons, List.not_mem_nil, or_false] at ha hb
  rcases ha with rfl | rfl <;> rcases hb with rfl | rfl <;> fin_cases i <;> simp <;> norm_num

theorem stackOfDiscs_solid : ∀ b ∈ stackOfDiscs.bodies, b.Solid := by simp [stackOfDiscs, Body2.Solid]

/-- Non-vacuity of C55, C56 and C57: the two discs of the stack are in contact, once, and the lower one is in contact with the ground. -/
theorem C57_stack (junk : ℝ → ℤ) : ∃ cs, stackOfDiscs.computeActiveSet2 junk [] = .ok cs ∧ cs.filterMap Contact2.pair = [(0, 1)] ∧
    (0, 0) ∈ cs.filterMap Contact2.planePair ∧ ∃ c ∈ cs, c.pair = some (0, 1) ∧ c.Direct ∧ c.PlaneAtRest stackOfDiscs := by
  obtain ⟨cs, h1, h2⟩ := C57_exact_partial (junk := junk) (s := stackOfDiscs) (by simp [stackOfDiscs]) stackOfDiscs_solid stackOfDiscs_spread (by
    intro i j a b A B _ ha hb _ _ _
    have ha' := List.mem_of_getElem? ha
    have hb' := List.mem_of_getElem? hb
    simp only [stackOfDiscs, List.mem_cons, List.not_mem_nil, or_false, or_self] at ha' hb'
    subst ha' hb'
    simp [Unsupported2])
  have hmem : ∀ p, p ∈ cs.filterMap Contact2.pair ↔ p = (0, 1) := by
    rintro ⟨i, j⟩
    rw [(h2 i j).1]
    constructor
    · rintro ⟨hij, a, b, ha, hb, _⟩
      have hj := (List.getElem?_eq_some_iff.mp hb).1
      simp only [stackOfDiscs, List.length_cons, List.length_nil] at hj
      have : i = 0 ∧ j = 1 := by omega
      simp [this.1, this.2]
    · intro h
      cases h
      refine ⟨by norm_num, ⟨.circle 1, false⟩, ⟨.circle 1, false⟩, rfl, rfl, by simp, 0, le_refl _, zero_le_one, ⟨0, 2⟩, ?_, ?_⟩ <;>
        simp [InDisc, distSq, moveTo, stackOfDiscs] <;> norm_num
  have hpl : (0, 0) ∈ cs.filterMap Contact2.planePair := by
    rw [C57_planes h1 stackOfDiscs_solid (by simp [stackOfDiscs])]
    refine ⟨⟨.circle 1, false⟩, ⟨⟨0, 0⟩, ⟨0, 1⟩, ⟨2, 0⟩, 0⟩, rfl, rfl, rfl, ⟨0, 0⟩, ?_, by simp⟩
    simp [Body2.pointsAt, PosedBody2D.points, discSet, stackOfDiscs]
  refine ⟨cs, h1, ?_, hpl, ?_⟩
  · have hc : (cs.filterMap Contact2.pair).count (0, 1) ≤ 1 := by
      rcases (h2 0 1).2.2 with h | ⟨a, b, ra, rb, ha, _, hra, _⟩
      · exact h
      · cases ha
        cases hra
    rw [List.eq_replicate_of_mem (fun p hp => (hmem p).mp hp : ∀ p ∈ cs.filterMap Contact2.pair, p = (0, 1))] at hc ⊢
    rw [List.count_replicate_self] at hc
    have hpos : 0 < (cs.filterMap Contact2.pair).length := List.length_pos_of_mem ((hmem (0, 1)).mpr rfl)
    rw [show (cs.filterMap Contact2.pair).length = 1 by omega]
    rfl
  · obtain ⟨c, hc, hp⟩ := List.mem_filterMap.mp ((hmem (0, 1)).mpr rfl)
    refine ⟨c, hc, hp, ?_⟩
    cases made_activeSet h1 hc with
    | bodyBody i j p n hi hj => exact ⟨trivial, trivial⟩
    | circleCircle i j ra rb hi hj => exact ⟨trivial, trivial⟩
    | kinematicCircle i k r n hi _ => exact ⟨trivial, trivial⟩
    | planeCircle i k r p hi hp => exact ⟨trivial, trivial⟩
    | planeBody i k arm p hi hp' => cases hp
    | teleported i j x0 x1 ra rb hi hj => exact absurd (direct_of_no_portals h1 hc) (fun h => h)
    | kick i j x0 x1 ra rb k hi hj => exact absurd (direct_of_no_portals h1 hc) (fun h => h)

theorem boxOnBelt_boxes : boxOnBelt.collisionBoxes = [⟨![-1, 0], ![1, 2]⟩] := by
  simp [collisionBoxes, boxOnBelt, toBox, Geometry2D.collisionAABB, boxCollisionAABB, boxAABB, seg2, ang2, rotation2D, M22.cwiseAbs, M22.mulVec]
  norm_num

theorem boxOnBelt_spread : Spread boxOnBelt.collisionBoxes 65536 := by
  rw [boxOnBelt_boxes]
  have hw : cellWidth ([⟨![-1, 0], ![1, 2]⟩] : List (Box 2 ℝ)) = 2 := by
    have h : (fun i => ![(1 : ℝ), 2] i - ![-1, 0] i) = fun _ => 2 := by
      funext i; fin_cases i <;> simp <;> norm_num
    simp [cellWidth]
    rw [h]
    simp [maxCoeff, Fin.tail]
  intro a ha b hb i
  rw [hw]
  simp only [List.mem_cons, List.not_mem_nil, or_false] at ha hb
  subst ha hb
  fin_cases i <;> simp <;> norm_num

/-- C55, finding: a box at rest on ground that moves to the right has a contact whose relative velocity is zero, although the ground moves relative to
the box; so there is no friction. -/
theorem C55_false_moving_plane (junk : ℝ → ℤ) : ∃ cs c, boxOnBelt.computeActiveSet2 junk [] = .ok cs ∧ c ∈ cs ∧ c.Direct ∧
    c.relVel boxOnBelt.q0 (fun _ => 0) = 0 ∧
    bodyVelocity boxOnBelt.q0 (fun _ => 0) c.simulatedBodies.1 (c.contactPoint boxOnBelt.q0) -
      partnerVelocity boxOnBelt (fun _ => 0) c (c.contactPoint boxOnBelt.q0) = ⟨-1, 0⟩ := by
  have hsolid : ∀ b ∈ boxOnBelt.bodies, b.Solid := by simp [boxOnBelt, Body2.Solid]
  obtain ⟨cs, h1, _⟩ := C57_exact_partial (junk := junk) (s := boxOnBelt) (by simp [boxOnBelt]) hsolid boxOnBelt_spread (by
    intro i j a b A B hij _ hb _ _ _
    have hj := (List.getElem?_eq_some_iff.mp hb).1
    simp only [boxOnBelt, List.length_cons, List.length_nil] at hj
    omega)
  have hc : Contact2.planeBody 0 ⟨-1, -1⟩ ⟨⟨0, 0⟩, ⟨0, 1⟩, ⟨1, 0⟩, 0⟩ 0 ∈ cs := by
    rw [(C57_plane_corners h1 hsolid).2]
    refine ⟨rfl, ⟨.box ⟨1, 1⟩, false⟩, ⟨1, 1⟩, rfl, rfl, rfl, by simp, by simp, ?_⟩
    simp [boxOnBelt]
  refine ⟨cs, _, h1, hc, trivial, ?_, ?_⟩
  · ext <;> simp [Contact2.relVel, Contact2.kinematicRelVel, seg2, ang2]
  · ext <;> simp [Contact2.simulatedBodies, bodyVelocity, partnerVelocity, rigidVelocity, boxOnBelt]

/-- A free box of half width 1 with its centre in the origin, and a scripted circle of radius 1 around `( 19/10, 19/10 )` -/
noncomputable def boxAndPeg : Step2 where
  bodies := [⟨.box ⟨1, 1⟩, false⟩, ⟨.circle 1, true⟩]
  planes := []
  q0 := fun k => if k = 3 then 19/10 else if k = 4 then 19/10 else 0
  q1 := fun k => if k = 3 then 19/10 else if k = 4 then 19/10 else 0
  v := fun _ => 0

theorem boxAndPeg_boxes : boxAndPeg.collisionBoxes = [⟨![-1, -1], ![1, 1]⟩, ⟨![9/10, 9/10], ![29/10, 29/10]⟩] := by
  simp [collisionBoxes, boxAndPeg, toBox, Geometry2D.collisionAABB, boxCollisionAABB, boxAABB, circleCollisionAABB, seg2, ang2, rotation2D, M22.cwiseAbs,
    M22.mulVec]
  norm_num

theorem boxAndPeg_spread : Spread boxAndPeg.collisionBoxes 65536 := by
  rw [boxAndPeg_boxes]
  have hw : cellWidth ([⟨![-1, -1], ![1, 1]⟩, ⟨![9/10, 9/10], ![29/10, 29/10]⟩] : List (Box 2 ℝ)) = 2 := by
    have h : (fun i => ![(1 : ℝ), 1] i - ![-1, -1] i + (![29/10, 29/10] i - ![9/10, 9/10] i)) = fun _ => 4 := by
      funext i; fin_cases i <;> simp <;> norm_num
    simp [cellWidth]
    rw [h]
    simp [maxCoeff, Fin.tail]
    norm_num
  intro a ha b hb i
  rw [hw]
  simp only [List.mem_cons, List.not_mem_nil, or_false] at ha hb
  rcases ha with rfl | rfl <;> rcases hb with rfl | rfl <;> fin_cases i <;> simp <;> norm_num

/-- C57, finding: the program exits although the box and the scripted circle have no point in common. -/
theorem C57_exits_apart (junk : ℝ → ℤ) : boxAndPeg.computeActiveSet2 junk [] = .exit ∧
    ¬∃ z, z ∈ Body2.pointsAt ⟨.box ⟨1, 1⟩, false⟩ boxAndPeg.q1 0 ∧ z ∈ Body2.pointsAt ⟨.circle 1, true⟩ boxAndPeg.q1 1 := by
  constructor
  · refine C57_exits (i := 0) (j := 1) (a := ⟨.box ⟨1, 1⟩, false⟩) (b := ⟨.circle 1, true⟩) (A := ⟨![-1, -1], ![1, 1]⟩)
      (B := ⟨![9/10, 9/10], ![29/10, 29/10]⟩) (by simp [boxAndPeg]) ?_ boxAndPeg_spread (by norm_num) rfl rfl (by rw [boxAndPeg_boxes]; rfl)
      (by rw [boxAndPeg_boxes]; rfl) ?_ ?_
    · simp [boxAndPeg, Body2.Solid]
    · refine ⟨![1, 1], ?_, ?_⟩ <;> intro i <;> fin_cases i <;> simp <;> norm_num
    · simp [Unsupported2]
  · rintro ⟨z, ⟨a, b, ha, hb, rfl⟩, hz⟩
    simp only [Body2.pointsAt, PosedBody2D.points, discSet, boxAndPeg, Set.mem_ofPred_eq] at hz
    rw [abs_le] at ha hb
    simp at hz
    nlinarith

end Scisim
