import Verif.Lemmas.BallContactLists
/-!
# C18, C19, C51: the contact list of the 2D ball simulation
-/

namespace Scisim

/-! ## C18: ball-ball contacts without portals -/

/-- **C18** (partial). Without portals, for a non-empty list of balls with positive radii, spread over at most 65536 average ball sizes
in each direction, the contact computation succeeds, and its ball-ball contacts are, each once, the pairs of balls whose paths collide
during the step. -/
theorem C18_exact_partial (junk : ℝ → ℤ) (bs : List BallStep) (hne : bs ≠ []) (hr : ∀ b ∈ bs, 0 < b.r)
    (hs : Spread (bs.map sweptBox) 65536) (planes : List (HalfPlane ℝ)) (drums : List Drum) :
    ∃ cs, computeActiveSet junk bs planes drums [] = .ok cs ∧ (ballPairs false cs).Nodup ∧ ballPairs true cs = [] ∧
      ∀ i j, (i, j) ∈ ballPairs false cs ↔ i < j ∧ ∃ a b, bs[i]? = some a ∧ bs[j]? = some b ∧ SweptCollide a b := by
  have hv : ∀ b ∈ bs.map sweptBox, b.Valid := by
    intro b hb
    obtain ⟨c, hc, rfl⟩ := List.mem_map.mp hb
    exact sweptBox_valid (hr c hc)
  obtain ⟨s, h1, h2, h3⟩ := C14_spread_partial (bs.map sweptBox) (by simpa using hne) hv 65536 (by norm_num) (by norm_num) hs
  have hpairs : ballPairs false (s.filterMap (narrowPhase bs)) = s.filter fun p => (narrowPhase bs p).isSome := by
    unfold ballPairs
    rw [List.filterMap_filterMap, ← List.filterMap_eq_filter]
    congr 1
    funext p
    cases hn : narrowPhase bs p with
    | none => simp [Option.guard, hn]
    | some c =>
      obtain ⟨a, b, _, _, _, rfl⟩ := (narrowPhase_some hr p c).mp hn
      simp [Option.guard, mkBallBall, hn]
  have htele : ballPairs true (s.filterMap (narrowPhase bs)) = [] := by
    unfold ballPairs
    rw [List.filterMap_eq_nil_iff]
    intro c hc
    obtain ⟨p, _, hp⟩ := List.mem_filterMap.mp hc
    obtain ⟨a, b, _, _, _, rfl⟩ := (narrowPhase_some hr p c).mp hp
    simp [mkBallBall]
  refine ⟨s.filterMap (narrowPhase bs) ++ drumContacts bs drums ++ planeContacts bs planes, ?_, ?_, ?_, ?_⟩
  · simp [computeActiveSet, computeBallBallActiveSetSpatialGrid, h1, Outcome.bind]
  · rw [ballPairs_append, ballPairs_append, ballPairs_drum, ballPairs_plane, List.append_nil, List.append_nil, hpairs]
    exact h2.filter _
  · rw [ballPairs_append, ballPairs_append, ballPairs_drum, ballPairs_plane, List.append_nil, List.append_nil, htele]
  · intro i j
    rw [ballPairs_append, ballPairs_append, ballPairs_drum, ballPairs_plane, List.append_nil, List.append_nil, hpairs,
      List.mem_filter, Option.isSome_iff_exists]
    simp only [narrowPhase_some hr]
    rw [h3]
    constructor
    · rintro ⟨⟨hij, _⟩, c, a, b, ha, hb, hc, _⟩
      exact ⟨hij, a, b, ha, hb, hc⟩
    · rintro ⟨hij, a, b, ha, hb, hc⟩
      refine ⟨⟨hij, sweptBox a, sweptBox b, by simp [ha], by simp [hb], ?_⟩, _, a, b, ha, hb, hc, rfl⟩
      exact sweptBox_overlap (hr a (List.mem_of_getElem? ha)).le (hr b (List.mem_of_getElem? hb)).le hc

/-- C18: the contact of a pair carries the pair's indices and radii and the unit normal from the second to the first ball at the start
of the step. -/
theorem C18_contact_data (bs : List BallStep) (hr : ∀ b ∈ bs, 0 < b.r) (cs : List Contact)
    (h : computeBallBallActiveSetSpatialGrid bs = .ok cs) (c : BallBall) (hc : .ballBall c ∈ cs) :
    ∃ a b, bs[c.idx0]? = some a ∧ bs[c.idx1]? = some b ∧ c.r0 = a.r ∧ c.r1 = b.r ∧ c.kick = none ∧
      (a.q0 ≠ b.q0 → c.n.x ^ 2 + c.n.y ^ 2 = 1 ∧ ∃ s : ℝ, 0 < s ∧ a.q0 = b.q0 + s • c.n) := by
  unfold computeBallBallActiveSetSpatialGrid at h
  obtain ⟨s, _, h⟩ := Outcome.bind_ok_iff.mp h
  cases h
  obtain ⟨p, _, hp⟩ := List.mem_filterMap.mp hc
  obtain ⟨a, b, ha, hb, _, h⟩ := (narrowPhase_some hr p _).mp hp
  cases h
  refine ⟨a, b, ha, hb, rfl, rfl, rfl, fun hne => ?_⟩
  have hpos : 0 < (a.q0 - b.q0).normSq := by
    rw [normSq_sub]
    unfold distSq
    have h1 := sq_nonneg (a.q0.x - b.q0.x)
    have h2 := sq_nonneg (a.q0.y - b.q0.y)
    by_contra hle
    push Not at hle
    apply hne
    ext
    · nlinarith
    · nlinarith
  have hsq : Real.sqrt (a.q0 - b.q0).normSq ^ 2 = (a.q0 - b.q0).normSq := Real.sq_sqrt hpos.le
  have hs := Real.sqrt_pos.mpr hpos
  simp only [mkBallBall, V2.normalized, if_pos hpos]
  constructor
  · simp only [V2.smul_x, V2.smul_y]
    rw [mul_pow, mul_pow, ← mul_add, div_pow, hsq, one_pow, one_div]
    have : (a.q0 - b.q0).x ^ 2 + (a.q0 - b.q0).y ^ 2 = (a.q0 - b.q0).normSq := by simp [V2.normSq, sq]
    rw [this, inv_mul_cancel₀ hpos.ne']
  · refine ⟨Real.sqrt (a.q0 - b.q0).normSq, hs, ?_⟩
    ext <;> simp only [V2.smul_x, V2.smul_y, V2.add_x, V2.add_y] <;> rw [← mul_assoc, mul_one_div_cancel hs.ne'] <;> simp

/-- Two fixed balls that overlap. -/
def fixedPair : List BallStep := [⟨⟨0, 0⟩, ⟨0, 0⟩, 1, true⟩, ⟨⟨1, 0⟩, ⟨1, 0⟩, 1, true⟩]

theorem fixedPair_spread : Spread (fixedPair.map sweptBox) 65536 := by
  have hw : cellWidth (fixedPair.map sweptBox) = 2 := by
    have h : (fun i => ![(1 : ℝ), 1] i - ![-1, -1] i + (![1 + 1, 1] i - ![0, -1] i)) = fun _ => 4 := by
      funext i; fin_cases i <;> simp <;> norm_num
    simp [cellWidth, fixedPair, sweptBox]
    rw [h]
    simp [maxCoeff, Fin.tail]
    norm_num
  intro a ha b hb i
  rw [hw]
  simp only [fixedPair, List.map_cons, List.map_nil, List.mem_cons, List.not_mem_nil, or_false] at ha hb
  rcases ha with rfl | rfl <;> rcases hb with rfl | rfl <;> fin_cases i <;> simp [sweptBox] <;> norm_num

/-- Non-vacuity of C18, and a finding: the `fixed` flags play no role, two fixed balls that overlap are in the contact list. -/
theorem C18_fixed_pair (junk : ℝ → ℤ) : ∃ cs, computeActiveSet junk fixedPair [] [] [] = .ok cs ∧ ballPairs false cs = [(0, 1)] ∧
    ∀ b ∈ fixedPair, b.fixed = true := by
  have hr : ∀ b ∈ fixedPair, 0 < b.r := by simp [fixedPair]
  obtain ⟨cs, h1, h2, _, h3⟩ := C18_exact_partial junk fixedPair (by simp [fixedPair]) hr fixedPair_spread [] []
  refine ⟨cs, h1, ?_, by simp [fixedPair]⟩
  have hmem : ∀ p, p ∈ ballPairs false cs ↔ p ∈ [(0, 1)] := by
    rintro ⟨i, j⟩
    rw [h3]
    constructor
    · rintro ⟨hij, a, b, ha, hb, _⟩
      have hj := (List.getElem?_eq_some_iff.mp hb).1
      simp only [fixedPair, List.length_cons, List.length_nil] at hj
      have : i = 0 ∧ j = 1 := by omega
      simp [this.1, this.2]
    · intro h
      simp only [List.mem_singleton, Prod.mk.injEq] at h
      obtain ⟨rfl, rfl⟩ := h
      refine ⟨by norm_num, _, _, rfl, rfl, 0, le_refl _, zero_le_one, ⟨1, 0⟩, ?_, ?_⟩ <;> simp [InDisc, distSq, moveTo]
  exact List.perm_singleton.mp ((List.perm_ext_iff_of_nodup h2 (List.nodup_singleton _)).mpr hmem)

/-- C18, finding: without any ball the grid is undefined behaviour (the average box width divides by zero). -/
theorem C18_no_balls (junk : ℝ → ℤ) (planes : List (HalfPlane ℝ)) (drums : List Drum) : computeActiveSet junk [] planes drums [] = .ub := rfl

/-! ## C19: contacts with planes and drums -/

/-- **C19.** Plane contacts are, each once, the pairs of a ball and a plane such that the ball's end-of-step disc meets the plane's solid
side; drum contacts are, each once, the pairs of a ball (no larger than the drum) and a drum such that the disc meets the outside. -/
theorem C19_exact (junk : ℝ → ℤ) (bs : List BallStep) (planes : List (HalfPlane ℝ)) (drums : List Drum) (portals : List (PlanarPortal ℝ))
    (hr : ∀ b ∈ bs, 0 ≤ b.r) (hn : ∀ p ∈ planes, p.n.x ^ 2 + p.n.y ^ 2 = 1) (cs : List Contact)
    (h : computeActiveSet junk bs planes drums portals = .ok cs) :
    (planePairs cs).Nodup ∧ (drumPairs cs).Nodup ∧
    (∀ i k, (i, k) ∈ planePairs cs ↔ ∃ b p, bs[i]? = some b ∧ planes[k]? = some p ∧ MeetsSolid b p) ∧
    (∀ i k b d, bs[i]? = some b → drums[k]? = some d → b.r ≤ d.r → ((i, k) ∈ drumPairs cs ↔ MeetsOutside b d)) := by
  unfold computeActiveSet at h
  obtain ⟨balls, hb, h⟩ := Outcome.bind_ok_iff.mp h
  cases h
  have hballs : planePairs balls = [] ∧ drumPairs balls = [] := by
    have hform : ∀ c ∈ balls, ∃ c', c = .ballBall c' := by
      intro c hc
      split at hb
      · unfold computeBallBallActiveSetSpatialGrid at hb
        obtain ⟨s, _, hb⟩ := Outcome.bind_ok_iff.mp hb
        cases hb
        obtain ⟨p, _, hp⟩ := List.mem_filterMap.mp hc
        unfold narrowPhase at hp
        split at hp
        · split at hp
          · cases hp; exact ⟨_, rfl⟩
          · cases hp
        · cases hp
      · unfold computeBallBallActiveSetSpatialGridWithPortals at hb
        obtain ⟨r, hr', hb⟩ := Outcome.bind_ok_iff.mp hb
        cases hb
        rcases List.mem_append.mp hc with hc | hc
        · unfold portalCollisions at hr'
          obtain ⟨tele, _, hr'⟩ := Outcome.bind_ok_iff.mp hr'
          obtain ⟨pairs, _, hr'⟩ := Outcome.bind_ok_iff.mp hr'
          cases hr'
          exact classify_form _ _ _ _ _ _ (by simp) c hc
        · obtain ⟨t, _, ht⟩ := List.mem_filterMap.mp hc
          unfold generateTeleported at ht
          split at ht
          · split at ht
            · cases ht; exact ⟨_, rfl⟩
            · split at ht <;> (cases ht; exact ⟨_, rfl⟩)
          · cases ht
    constructor
    · unfold planePairs
      rw [List.filterMap_eq_nil_iff]
      intro c hc
      obtain ⟨_, rfl⟩ := hform c hc
      rfl
    · unfold drumPairs
      rw [List.filterMap_eq_nil_iff]
      intro c hc
      obtain ⟨_, rfl⟩ := hform c hc
      rfl
  rw [planePairs_append, planePairs_append, drumPairs_append, drumPairs_append, hballs.1, hballs.2, planePairs_drum, drumPairs_plane,
    List.nil_append, List.nil_append, List.append_nil, List.nil_append, planePairs_eq, drumPairs_eq]
  refine ⟨pairs_nodup bs planes fun b p => planeIsActive b.q1 b.r p, pairs_nodup bs drums fun b d => drumIsActive b.q1 b.r d, ?_, ?_⟩
  · intro i k
    rw [mem_pairs bs planes fun b p => planeIsActive b.q1 b.r p]
    constructor
    · rintro ⟨b, p, h1, h2, h3⟩
      exact ⟨b, p, h1, h2, (planeIsActive_iff b p (hn p (List.mem_of_getElem? h2)) (hr b (List.mem_of_getElem? h1))).mp h3⟩
    · rintro ⟨b, p, h1, h2, h3⟩
      exact ⟨b, p, h1, h2, (planeIsActive_iff b p (hn p (List.mem_of_getElem? h2)) (hr b (List.mem_of_getElem? h1))).mpr h3⟩
  · intro i k b d h1 h2 hR
    rw [mem_pairs bs drums fun b d => drumIsActive b.q1 b.r d]
    have key := drumIsActive_iff b d (hr b (List.mem_of_getElem? h1)) hR
    constructor
    · rintro ⟨b', d', h1', h2', h3⟩
      rw [h1] at h1'; rw [h2] at h2'
      cases h1'; cases h2'
      exact key.mp h3
    · intro h3
      exact ⟨b, d, h1, h2, key.mpr h3⟩

/-- C19: the normal of a plane contact is the plane's normal; the drum normal is the unit vector towards the drum's centre. -/
theorem C19_normals (bs : List BallStep) (planes : List (HalfPlane ℝ)) (drums : List Drum) :
    (∀ i n k, .plane i n k ∈ planeContacts bs planes → ∃ p, planes[k]? = some p ∧ n = p.n) ∧
    (∀ i n k, .drum i n k ∈ drumContacts bs drums → ∃ b d, bs[i]? = some b ∧ drums[k]? = some d ∧ n = (d.x - b.q0).normalized) := by
  constructor
  · intro i n k h
    simp only [planeContacts, List.mem_flatMap, List.mem_filterMap] at h
    obtain ⟨⟨p, pi⟩, hp, ⟨b, bi⟩, _, h⟩ := h
    rw [List.mk_mem_zipIdx_iff_getElem?] at hp
    split at h
    · cases h; exact ⟨p, hp, rfl⟩
    · cases h
  · intro i n k h
    simp only [drumContacts, List.mem_flatMap, List.mem_filterMap] at h
    obtain ⟨⟨p, pi⟩, hp, ⟨b, bi⟩, hb, h⟩ := h
    rw [List.mk_mem_zipIdx_iff_getElem?] at hp hb
    split at h
    · cases h; exact ⟨b, p, hb, hp, rfl⟩
    · cases h

/-- Non-vacuity of C19: a ball resting on the ground inside a drum. -/
example : MeetsSolid ⟨⟨0, 1⟩, ⟨0, 1⟩, 1, false⟩ ⟨⟨0, 0⟩, ⟨0, 0⟩, ⟨0, 1⟩, ⟨-1, 0⟩⟩ ∧
    ¬MeetsOutside ⟨⟨0, 1⟩, ⟨0, 1⟩, 1, false⟩ ⟨⟨0, 0⟩, 3⟩ ∧ MeetsOutside ⟨⟨0, 1⟩, ⟨0, 1⟩, 1, false⟩ ⟨⟨0, 0⟩, 2⟩ := by
  refine ⟨⟨⟨0, 0⟩, by simp [InDisc, distSq], by simp [HalfPlane.height]⟩, ?_, ⟨⟨0, 2⟩, by simp [InDisc, distSq]; try norm_num, by simp [distSq]⟩⟩
  rintro ⟨x, h1, h2⟩
  simp only [InDisc, distSq] at h1 h2
  nlinarith

/-- C19, finding: a ball larger than the drum, at its centre, meets the outside but is not detected. -/
theorem C19_large_ball : MeetsOutside ⟨⟨0, 0⟩, ⟨0, 0⟩, 2, false⟩ ⟨⟨0, 0⟩, 1⟩ ∧ drumIsActive ⟨0, 0⟩ 2 ⟨⟨0, 0⟩, 1⟩ = false := by
  refine ⟨⟨⟨2, 0⟩, by simp [InDisc, distSq], by simp [distSq]⟩, ?_⟩
  unfold drumIsActive
  rw [decide_eq_false_iff_not]
  simp [V2.normSq]
  try norm_num

/-! ## C51: contacts through portals -/

/-- **C51** (partial). Suppose no ball touches both planes of a portal (otherwise the program exits), the radii are positive, and the boxes
(of the balls and of their images) are spread over at most 65536 average sizes. Then the contact computation succeeds and
* its teleported contacts have strictly increasing ball pairs: there is at most one for each pair, with the smaller index first;
* a pair has a teleported contact exactly if two images of the balls, at least one of them through a portal, meet at the end of the step,
  where pairs of which both were teleported do not count if the balls meet directly;
* the other ball-ball contacts are exactly the pairs of balls that meet at the end of the step, each once. -/
theorem C51_exact_partial (junk : ℝ → ℤ) (bs : List BallStep) (hne : bs ≠ []) (hr : ∀ b ∈ bs, 0 < b.r) (portals : List (PlanarPortal ℝ))
    (hp : portals ≠ []) (tele : List (TeleportedBall × Box 2 ℝ)) (ht : teleportedBalls junk bs 0 portals = .ok tele)
    (hs : Spread (bs.map (fun b => boxAround b.q1 b.r) ++ tele.map (·.2)) 65536) (planes : List (HalfPlane ℝ)) (drums : List Drum) :
    ∃ cs, computeActiveSet junk bs planes drums portals = .ok cs ∧
      (ballPairs true cs).Pairwise (fun p q => p.1 < q.1 ∨ (p.1 = q.1 ∧ p.2 < q.2)) ∧
      (∀ i j, (i, j) ∈ ballPairs true cs ↔ i ≤ j ∧ ∃ u v : Image, u.body = i ∧ v.body = j ∧ CollideThroughPortal junk portals bs u v) ∧
      (ballPairs false cs).Nodup ∧
      (∀ i j, (i, j) ∈ ballPairs false cs ↔ i < j ∧ ∃ a b, bs[i]? = some a ∧ bs[j]? = some b ∧ DiscsMeet a.q1 a.r b.q1 b.r) := by
  obtain ⟨pairs, hpairs, hnd, hset⟩ := C14_spread_partial _ (by simp [hne]) (portalBoxes_valid hr ht) 65536 (by norm_num) (by norm_num) hs
  set ts := (pairs.filterMap (collisionOf junk portals bs (tele.map (·.1)))).foldl (fun s c => insertCollision c s) [] with hts
  set os := pairs.filterMap (ordinaryOf bs (tele.map (·.1))) with hos
  obtain ⟨hsorted, hfrom, hto⟩ := foldl_collisions (pairs.filterMap (collisionOf junk portals bs (tele.map (·.1)))) [] List.Pairwise.nil
  rw [← hts] at hsorted hfrom hto
  -- members of the collision set
  have hmem : ∀ c ∈ ts, c.fst.body ≤ c.snd.body ∧ CollideThroughPortal junk portals bs c.fst c.snd := by
    intro c hc
    rcases hfrom c hc with h | h
    · obtain ⟨p, hp, h⟩ := List.mem_filterMap.mp h
      obtain ⟨_, a, b, ha, hb, _⟩ := (hset p.1 p.2).mp hp
      obtain ⟨a', ca, hia, _⟩ := image_of_box ht ha
      obtain ⟨b', cb, hib, _⟩ := image_of_box ht hb
      obtain ⟨hcol, rfl⟩ := (collisionOf_iff hr hia hib c).mp h
      unfold mkTeleportedCollision
      split
      · exact ⟨by simp only; omega, collideThroughPortal_symm hcol⟩
      · exact ⟨by simp only; omega, hcol⟩
    · cases h
  have hcomplete : ∀ u v : Image, u.body ≤ v.body → CollideThroughPortal junk portals bs u v →
      ∃ c ∈ ts, c.fst.body = u.body ∧ c.snd.body = v.body := by
    intro u v huv hcol
    obtain ⟨a, b, ca, cb, h1, h2, h3, h4, h5⟩ := id hcol
    obtain ⟨k, hk, hbk⟩ := box_of_image ht h1
    obtain ⟨l, hl, hbl⟩ := box_of_image ht h2
    have hov := boxAround_overlap (hr a (List.mem_of_getElem? h1.1)).le (hr b (List.mem_of_getElem? h2.1)).le h4
    have hkl : k ≠ l := by
      rintro rfl
      rw [hk] at hl
      subst hl
      have hab := Option.some.inj (h1.1.symm.trans h2.1)
      subst hab
      have hra := hr a (List.mem_of_getElem? h1.1)
      refine h5 ⟨by tauto, by tauto, a.q1, ?_, ?_⟩ <;> simp [InDisc, distSq, sq_nonneg]
    have hins : ∃ c, c ∈ pairs.filterMap (collisionOf junk portals bs (tele.map (·.1))) ∧
        (c = mkTeleportedCollision u v ∨ c = mkTeleportedCollision v u) := by
      rcases Nat.lt_or_gt_of_ne hkl with hlt | hlt
      · have hin := (hset k l).mpr ⟨hlt, _, _, hbk, hbl, hov⟩
        refine ⟨mkTeleportedCollision u v, List.mem_filterMap.mpr ⟨(k, l), hin, ?_⟩, Or.inl rfl⟩
        rw [collisionOf_iff (p := (k, l)) hr (by rw [hk]; exact h1) (by rw [hl]; exact h2)]
        simp only
        rw [hk, hl]
        exact ⟨hcol, rfl⟩
      · have hin := (hset l k).mpr ⟨hlt, _, _, hbl, hbk, by obtain ⟨x, hx, hy⟩ := hov; exact ⟨x, hy, hx⟩⟩
        refine ⟨mkTeleportedCollision v u, List.mem_filterMap.mpr ⟨(l, k), hin, ?_⟩, Or.inr rfl⟩
        rw [collisionOf_iff (p := (l, k)) hr (by rw [hl]; exact h2) (by rw [hk]; exact h1)]
        simp only
        rw [hk, hl]
        exact ⟨collideThroughPortal_symm hcol, rfl⟩
    obtain ⟨c, hc, hceq⟩ := hins
    obtain ⟨e, he, hke⟩ := hto c (Or.inl hc)
    refine ⟨e, he, ?_⟩
    have hbodies : c.fst.body = u.body ∧ c.snd.body = v.body := by
      rcases hceq with rfl | rfl
      · unfold mkTeleportedCollision
        rw [if_neg (by omega)]
        exact ⟨rfl, rfl⟩
      · unfold mkTeleportedCollision
        by_cases h : v.body > u.body
        · rw [if_pos h]; exact ⟨rfl, rfl⟩
        · rw [if_neg h]; simp only; omega
    exact ⟨hke.1.trans hbodies.1, hke.2.trans hbodies.2⟩
  have hgen : ∀ c ∈ ts, ∃ d, generateTeleported junk portals bs c = some (.ballBall d) ∧ d.teleported = true ∧
      d.idx0 = c.fst.body ∧ d.idx1 = c.snd.body := by
    intro c hc
    obtain ⟨_, a, b, _, _, h1, h2, _⟩ := hmem c hc
    exact generateTeleported_some h1.1 h2.1
  have hbt : ballPairs true (os ++ ts.filterMap (generateTeleported junk portals bs)) = ts.map fun c => (c.fst.body, c.snd.body) := by
    rw [ballPairs_append]
    have h1 : ballPairs true os = [] := by
      unfold ballPairs
      rw [List.filterMap_eq_nil_iff]
      intro c hc
      obtain ⟨p, _, hp⟩ := List.mem_filterMap.mp hc
      obtain ⟨_, _, _, _, rfl, _⟩ := ordinaryOf_form hp
      simp [mkBallBall]
    rw [h1, List.nil_append]
    unfold ballPairs
    rw [List.filterMap_filterMap, ← List.filterMap_eq_map]
    refine List.filterMap_congr fun c hc => ?_
    obtain ⟨d, hd, h2, h3, h4⟩ := hgen c hc
    simp [hd, h2, h3, h4]
  have hbf : ballPairs false (os ++ ts.filterMap (generateTeleported junk portals bs)) =
      pairs.filter fun p => (ordinaryOf bs (tele.map (·.1)) p).isSome := by
    rw [ballPairs_append]
    have h1 : ballPairs false (ts.filterMap (generateTeleported junk portals bs)) = [] := by
      unfold ballPairs
      rw [List.filterMap_eq_nil_iff]
      intro x hx
      obtain ⟨c, hc, hx⟩ := List.mem_filterMap.mp hx
      obtain ⟨d, hd, h2, _⟩ := hgen c hc
      rw [hd] at hx
      cases hx
      simp [h2]
    rw [h1, List.append_nil, hos]
    unfold ballPairs
    rw [List.filterMap_filterMap, ← List.filterMap_eq_filter]
    congr 1
    funext p
    cases hn : ordinaryOf bs (tele.map (·.1)) p with
    | none => simp [Option.guard, hn]
    | some c =>
      obtain ⟨a, b, _, _, rfl, _⟩ := ordinaryOf_form hn
      simp [Option.guard, mkBallBall, hn]
  refine ⟨os ++ ts.filterMap (generateTeleported junk portals bs) ++ drumContacts bs drums ++ planeContacts bs planes, ?_, ?_, ?_, ?_, ?_⟩
  · have hpl : portals.length ≠ 0 := by simpa using hp
    simp only [computeActiveSet, hpl, if_false, computeBallBallActiveSetSpatialGridWithPortals, portalCollisions, ht, hpairs, Outcome.bind,
      foldl_classify, List.nil_append]
    rfl
  · rw [ballPairs_append, ballPairs_append, ballPairs_drum, ballPairs_plane, List.append_nil, List.append_nil, hbt]
    exact List.pairwise_map.mpr hsorted
  · intro i j
    rw [ballPairs_append, ballPairs_append, ballPairs_drum, ballPairs_plane, List.append_nil, List.append_nil, hbt, List.mem_map]
    constructor
    · rintro ⟨c, hc, he⟩
      cases he
      exact ⟨(hmem c hc).1, c.fst, c.snd, rfl, rfl, (hmem c hc).2⟩
    · rintro ⟨hij, u, v, rfl, rfl, hcol⟩
      obtain ⟨c, hc, h1, h2⟩ := hcomplete u v hij hcol
      exact ⟨c, hc, by rw [h1, h2]⟩
  · rw [ballPairs_append, ballPairs_append, ballPairs_drum, ballPairs_plane, List.append_nil, List.append_nil, hbf]
    exact hnd.filter _
  · intro i j
    rw [ballPairs_append, ballPairs_append, ballPairs_drum, ballPairs_plane, List.append_nil, List.append_nil, hbf, List.mem_filter,
      Option.isSome_iff_exists]
    constructor
    · rintro ⟨hin, c, hc⟩
      obtain ⟨a, b, ha, hb, _, hd⟩ := ordinaryOf_form hc
      exact ⟨((hset i j).mp hin).1, a, b, ha, hb, (directlyActive_iff hr ha hb).mp hd⟩
    · rintro ⟨hij, a, b, ha, hb, hd⟩
      have hla := (List.getElem?_eq_some_iff.mp ha).1
      have hlb := (List.getElem?_eq_some_iff.mp hb).1
      refine ⟨(hset i j).mpr ⟨hij, boxAround a.q1 a.r, boxAround b.q1 b.r, ?_, ?_, ?_⟩, ?_⟩
      · rw [List.getElem?_append_left (by simpa using hla)]; simp [ha]
      · rw [List.getElem?_append_left (by simpa using hlb)]; simp [hb]
      · exact boxAround_overlap (hr a (List.mem_of_getElem? ha)).le (hr b (List.mem_of_getElem? hb)).le hd
      · refine ⟨.ballBall (mkBallBall i j a.q0 b.q0 a.r b.r false), ?_⟩
        have hda := (directlyActive_iff hr ha hb).mpr hd
        simp only [ordinaryOf, imageOf, hla, hlb, if_true, hda, ha, hb]

/-- **C51**, contact data. Each teleported contact comes from two colliding images. It carries the indices and radii of the balls, the
normal from the second to the first image at the start of the step, and the velocity of the sliding portal: `+` for the second ball's
portal, `-` for the first ball's, none if neither portal slides. -/
theorem C51_data (junk : ℝ → ℤ) (bs : List BallStep) (hr : ∀ b ∈ bs, 0 < b.r) (portals : List (PlanarPortal ℝ)) (cs : List Contact)
    (h : computeBallBallActiveSetSpatialGridWithPortals junk portals bs = .ok cs) (d : BallBall) (hd : .ballBall d ∈ cs)
    (ht : d.teleported = true) :
    ∃ u v : Image, CollideThroughPortal junk portals bs u v ∧ u.body = d.idx0 ∧ v.body = d.idx1 ∧
      ∃ a b, bs[d.idx0]? = some a ∧ bs[d.idx1]? = some b ∧ d.r0 = a.r ∧ d.r1 = b.r ∧
        d.n = (u.see junk portals a.q0 - v.see junk portals b.q0).normalized ∧
        (∀ p plane, v.slidesThrough portals p plane → d.kick = some (kickOf p plane)) ∧
        ((¬∃ p plane, v.slidesThrough portals p plane) → ∀ p plane, u.slidesThrough portals p plane → d.kick = some (-kickOf p plane)) ∧
        ((¬∃ p plane, v.slidesThrough portals p plane) → (¬∃ p plane, u.slidesThrough portals p plane) → d.kick = none) := by
  unfold computeBallBallActiveSetSpatialGridWithPortals portalCollisions at h
  obtain ⟨r, hr', h⟩ := Outcome.bind_ok_iff.mp h
  obtain ⟨tele, htele, hr'⟩ := Outcome.bind_ok_iff.mp hr'
  obtain ⟨pairs, hpairs, hr'⟩ := Outcome.bind_ok_iff.mp hr'
  cases hr'
  cases h
  rw [foldl_classify] at hd
  rcases List.mem_append.mp hd with hd | hd
  · exfalso
    obtain ⟨p, _, hp⟩ := List.mem_filterMap.mp (by simpa using hd : Contact.ballBall d ∈ List.filterMap (ordinaryOf bs (tele.map (·.1))) pairs)
    obtain ⟨_, _, _, _, h, _⟩ := ordinaryOf_form hp
    cases h
    simp [mkBallBall] at ht
  · obtain ⟨c, hc, hg⟩ := List.mem_filterMap.mp hd
    rcases (foldl_collisions _ [] List.Pairwise.nil).2.1 c hc with hc | hc
    swap
    · cases hc
    obtain ⟨p, hp, hcol⟩ := List.mem_filterMap.mp hc
    obtain ⟨_, a0, b0, ha0, hb0, _⟩ := (C14_complete_partial _ (portalBoxes_valid hr htele) pairs hpairs).2.2 p.1 p.2 hp
    obtain ⟨a', ca, hia, _⟩ := image_of_box htele ha0
    obtain ⟨b', cb, hib, _⟩ := image_of_box htele hb0
    obtain ⟨hcoll, hceq⟩ := (collisionOf_iff hr hia hib c).mp hcol
    have hc2 : CollideThroughPortal junk portals bs c.fst c.snd := by
      rw [hceq]
      unfold mkTeleportedCollision
      split
      · exact collideThroughPortal_symm hcoll
      · exact hcoll
    obtain ⟨a, b, ca, cb, h1, h2, _⟩ := id hc2
    have hgen := generateTeleported_data htele h1 h2 hg
    obtain ⟨hi0, hi1, hrest⟩ := hgen
    exact ⟨c.fst, c.snd, hc2, hi0.symm, hi1.symm, a, b, by rw [hi0]; exact h1.1, by rw [hi1]; exact h2.1, hrest⟩

/-- The walls of a periodic channel, from `x = 0` to `x = L`. -/
def channel (L : ℝ) : PlanarPortal ℝ := ⟨⟨⟨0, 0⟩, ⟨0, 0⟩, ⟨1, 0⟩, ⟨0, 1⟩⟩, ⟨⟨L, 0⟩, ⟨0, 0⟩, ⟨-1, 0⟩, ⟨0, -1⟩⟩, 0, 0, 0⟩

/-- A ball at each end of the channel of length 10; they touch through the portal. -/
noncomputable def channelBalls : List BallStep := [⟨⟨1/2, 0⟩, ⟨1/2, 0⟩, 1, false⟩, ⟨⟨9, 0⟩, ⟨9, 0⟩, 1, false⟩]

theorem channel_teleported (junk : ℝ → ℤ) : teleportedBalls junk channelBalls 0 [channel 10] = .ok
    [(⟨0, 0, false⟩, boxAround ⟨21/2, 0⟩ 1), (⟨1, 0, true⟩, boxAround ⟨-1, 0⟩ 1)] := by
  have h0 : ballTouchesPortal (channel 10) ⟨1/2, 0⟩ 1 = .ok (some false) := by
    simp [ballTouchesPortal, channel, HalfPlane.distanceLessThanOrEqualZero, V2.dot]; norm_num
  have h1 : ballTouchesPortal (channel 10) ⟨9, 0⟩ 1 = .ok (some true) := by
    simp [ballTouchesPortal, channel, HalfPlane.distanceLessThanOrEqualZero, V2.dot]; norm_num
  have t0 : (channel 10).teleportBall junk ⟨1/2, 0⟩ 1 = ⟨21/2, 0⟩ := by
    rw [teleportBall_eq (b := ⟨⟨1/2, 0⟩, ⟨1/2, 0⟩, 1, false⟩) h0]
    ext <;> simp [channel, PlanarPortal.teleportPointThroughPlaneA, V2.dot] <;> norm_num
  have t1 : (channel 10).teleportBall junk ⟨9, 0⟩ 1 = ⟨-1, 0⟩ := by
    rw [teleportBall_eq (b := ⟨⟨9, 0⟩, ⟨9, 0⟩, 1, false⟩) h1]
    ext <;> simp [channel, PlanarPortal.teleportPointThroughPlaneB, V2.dot] <;> norm_num
  simp only [teleportedBalls, teleportedOf, channelBalls, h0, h1, t0, t1, Outcome.bind, List.append_nil]

/-- Non-vacuity of C51: the two balls touch through the portal, seen from either end, and there is one teleported contact. -/
theorem C51_channel (junk : ℝ → ℤ) : ∃ cs, computeActiveSet junk channelBalls [] [] [channel 10] = .ok cs ∧
    (0, 1) ∈ ballPairs true cs ∧ (ballPairs true cs).Nodup ∧ ballPairs false cs = [] := by
  have hr : ∀ b ∈ channelBalls, 0 < b.r := by simp [channelBalls]
  obtain ⟨cs, h1, h2, h3, h4, h5⟩ := C51_exact_partial junk channelBalls (by simp [channelBalls]) hr [channel 10] (by simp) _
    (channel_teleported junk) (by
      have hw : cellWidth (channelBalls.map (fun b => boxAround b.q1 b.r) ++
          [((⟨0, 0, false⟩ : TeleportedBall), boxAround ⟨21/2, 0⟩ 1), ((⟨1, 0, true⟩ : TeleportedBall), boxAround ⟨-1, 0⟩ 1)].map (·.2)) = 2 := by
        simp only [cellWidth, channelBalls, boxAround, List.map_cons, List.map_nil, List.cons_append, List.nil_append, List.foldl_cons,
          List.foldl_nil, List.length_cons, List.length_nil]
        simp [maxCoeff, Fin.tail]
        norm_num
      intro a ha b hb i
      rw [hw]
      simp only [channelBalls, List.map_cons, List.map_nil, List.cons_append, List.nil_append, List.mem_cons, List.not_mem_nil, or_false] at ha hb
      rcases ha with rfl | rfl | rfl | rfl <;> rcases hb with rfl | rfl | rfl | rfl <;> fin_cases i <;> simp [boxAround] <;> norm_num) [] []
  refine ⟨cs, h1, ?_, ?_, ?_⟩
  · rw [h3]
    refine ⟨by norm_num, ⟨0, some (0, false)⟩, ⟨1, none⟩, rfl, rfl, ⟨⟨1/2, 0⟩, ⟨1/2, 0⟩, 1, false⟩, ⟨⟨9, 0⟩, ⟨9, 0⟩, 1, false⟩,
      ⟨21/2, 0⟩, ⟨9, 0⟩, ⟨rfl, channel 10, rfl, Or.inl ⟨rfl, ?_, ?_⟩⟩, ⟨rfl, rfl⟩, Or.inl (by simp), ⟨⟨10, 0⟩, ?_, ?_⟩, by simp⟩
    · simp [channel, HalfPlane.height]; norm_num
    · ext <;> simp [channel, PlanarPortal.teleportPointThroughPlaneA, V2.dot] <;> norm_num
    · simp [InDisc, distSq]; norm_num
    · simp [InDisc, distSq]; norm_num
  · refine h2.imp ?_
    rintro ⟨a, b⟩ ⟨c, d⟩ h he
    cases he
    simp only at h
    omega
  · rw [List.eq_nil_iff_forall_not_mem]
    rintro ⟨i, j⟩ h
    obtain ⟨hij, a, b, ha, hb, hm⟩ := (h5 i j).mp h
    have hj := (List.getElem?_eq_some_iff.mp hb).1
    simp only [channelBalls, List.length_cons, List.length_nil] at hj
    have h01 : i = 0 ∧ j = 1 := by omega
    obtain ⟨rfl, rfl⟩ := h01
    cases ha
    cases hb
    rw [discsMeet_iff (by norm_num) (by norm_num)] at hm
    simp [distSq] at hm
    norm_num at hm

/-- C51, finding: in a channel shorter than a ball's diameter a ball is in contact with its own image, so the two indices of a contact can
be equal. -/
theorem C51_self (junk : ℝ → ℤ) : CollideThroughPortal junk [channel (3/2)] [⟨⟨1/10, 0⟩, ⟨1/10, 0⟩, 1, false⟩] ⟨0, none⟩ ⟨0, some (0, false)⟩ ∧
    ballTouchesPortal (channel (3/2)) ⟨1/10, 0⟩ 1 = .ok (some false) := by
  constructor
  · refine ⟨⟨⟨1/10, 0⟩, ⟨1/10, 0⟩, 1, false⟩, ⟨⟨1/10, 0⟩, ⟨1/10, 0⟩, 1, false⟩, ⟨1/10, 0⟩, ⟨16/10, 0⟩, ⟨rfl, rfl⟩,
      ⟨rfl, channel (3/2), rfl, Or.inl ⟨rfl, ?_, ?_⟩⟩, Or.inr (by simp), ⟨⟨1, 0⟩, ?_, ?_⟩, by simp⟩
    · simp [channel, HalfPlane.height]; norm_num
    · ext <;> simp [channel, PlanarPortal.teleportPointThroughPlaneA, V2.dot] <;> norm_num
    · simp [InDisc, distSq]; norm_num
    · simp [InDisc, distSq]; norm_num
  · simp [ballTouchesPortal, channel, HalfPlane.distanceLessThanOrEqualZero, V2.dot]; norm_num

/-- C51: a ball that touches both planes of a portal stops the program. -/
theorem C51_both_planes (junk : ℝ → ℤ) (p : PlanarPortal ℝ) (ps : List (PlanarPortal ℝ)) (b : BallStep) (bs : List BallStep)
    (hA : p.planeA.height b.q1 ≤ b.r) (hB : p.planeB.height b.q1 ≤ b.r) (planes : List (HalfPlane ℝ)) (drums : List Drum) :
    computeActiveSet junk (b :: bs) planes drums (p :: ps) = .exit := by
  have ht : ballTouchesPortal p b.q1 b.r = .exit := by
    have hh : ∀ q : HalfPlane ℝ, q.n.dot (b.q1 - q.x) = q.height b.q1 := fun q => by simp [V2.dot, HalfPlane.height]
    unfold ballTouchesPortal HalfPlane.distanceLessThanOrEqualZero
    rw [hh, hh]
    simp [hA, hB]
  simp [computeActiveSet, computeBallBallActiveSetSpatialGridWithPortals, portalCollisions, teleportedBalls, teleportedOf, ht, Outcome.bind]

end Scisim
