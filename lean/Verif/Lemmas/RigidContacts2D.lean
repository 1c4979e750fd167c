import Mathlib.Tactic.Ring
import Mathlib.Tactic.LinearCombination
import Mathlib.Tactic.Linarith
import Mathlib.Tactic.FinCases
import Mathlib.Tactic.ByContra
import Mathlib.Tactic.Push
import Mathlib.Algebra.BigOperators.Intervals
import Verif.Spec.RigidContacts2D
/-!
# Which contacts are created, and from what
-/

namespace Scisim

namespace Step2

/-- A body of the scene that is not scripted -/
def Free (s : Step2) (i : Nat) : Prop := ∃ b, s.bodies[i]? = some b ∧ b.fixed = false

/-- A body of the scene that is scripted -/
def Scripted (s : Step2) (i : Nat) : Prop := ∃ b, s.bodies[i]? = some b ∧ b.fixed = true

/-- Body `i` of the scene is a circle of radius `r`. -/
def Circle (s : Step2) (i : Nat) (r : ℝ) : Prop := ∃ b, s.bodies[i]? = some b ∧ b.geometry = .circle r

/-- The ways in which contacts come about -/
inductive Made (junk : ℝ → ℤ) (s : Step2) (portals : List (PlanarPortal ℝ)) : Contact2 → Prop
  | bodyBody (i j : Nat) (p n : V2 ℝ) : s.Free i → s.Free j → Made junk s portals (.mkBodyBody i j p n s.q0)
  | circleCircle (i j : Nat) (ra rb : ℝ) : s.Free i → s.Free j → s.Circle i ra → s.Circle j rb →
      Made junk s portals (.circleCircle i j (seg2 s.q0 i - seg2 s.q0 j).normalized
        (seg2 s.q0 i + (ra / (ra + rb)) • (seg2 s.q0 j - seg2 s.q0 i)) ra rb)
  | kinematicCircle (i k : Nat) (r : ℝ) (n : V2 ℝ) : s.Free i → s.Scripted k →
      Made junk s portals (.kinematicCircle i r n k (seg2 s.q0 k) (seg2 s.v k) (ang2 s.v k))
  | planeCircle (i k : Nat) (r : ℝ) (p : Plane2) : s.Free i → s.planes[k]? = some p → s.Circle i r →
      Made junk s portals (.planeCircle i k r p)
  | planeBody (i k : Nat) (arm : V2 ℝ) (p : Plane2) : s.Free i → s.planes[k]? = some p → Made junk s portals (.planeBody i arm p k)
  | teleported (i j : Nat) (x0 x1 : V2 ℝ) (ra rb : ℝ) : s.Free i → s.Free j → Made junk s portals (.mkTeleported i j x0 x1 ra rb)
  | kick (i j : Nat) (x0 x1 : V2 ℝ) (ra rb : ℝ) (k : V2 ℝ) : s.Free i → s.Free j → Made junk s portals (.mkKick i j x0 x1 ra rb k)

theorem collect_ok {α β : Type} {f : α → Outcome (List β)} : ∀ {l : List α} {out : List β}, collect f l = .ok out →
    (∀ b, b ∈ out ↔ ∃ a ∈ l, ∃ here, f a = .ok here ∧ b ∈ here) ∧ ∀ a ∈ l, ∃ here, f a = .ok here
  | [], out, h => by
    unfold collect at h
    cases h
    simp
  | a :: l, out, h => by
    unfold collect at h
    obtain ⟨here, h1, h⟩ := Outcome.bind_ok_iff.mp h
    obtain ⟨rest, h2, h⟩ := Outcome.bind_ok_iff.mp h
    cases h
    obtain ⟨ih1, ih2⟩ := collect_ok h2
    constructor
    · intro b
      rw [List.mem_append, ih1]
      constructor
      · rintro (hb | ⟨a', ha', here', h3, h4⟩)
        · exact ⟨a, by simp, here, h1, hb⟩
        · exact ⟨a', by simp [ha'], here', h3, h4⟩
      · rintro ⟨a', ha', here', h3, h4⟩
        rcases List.mem_cons.mp ha' with rfl | ha'
        · rw [h1] at h3
          cases h3
          exact Or.inl h4
        · exact Or.inr ⟨a', ha', here', h3, h4⟩
    · intro a' ha'
      rcases List.mem_cons.mp ha' with rfl | ha'
      · exact ⟨here, h1⟩
      · exact ih2 a' ha'

variable {junk : ℝ → ℤ} {s : Step2} {portals : List (PlanarPortal ℝ)}

theorem made_circleCircle {i j : Nat} {b : Body2} {ra rb : ℝ} (hi : s.Free i) (hb : s.bodies[j]? = some b) (ha : s.Circle i ra) (hg : b.geometry = .circle rb) {c : Contact2}
    (h : c ∈ s.circleCircleNarrowPhaseCollision i j b ra rb) : Made junk s portals c := by
  unfold circleCircleNarrowPhaseCollision at h
  dsimp only at h
  split at h
  · simp at h
  · by_cases hf : b.fixed = true
    · rw [if_neg (by simp [hf])] at h
      rw [List.mem_singleton] at h
      subst h
      exact .kinematicCircle _ _ _ _ hi ⟨b, hb, hf⟩
    · rw [if_pos (by simp [hf])] at h
      rw [List.mem_singleton] at h
      subst h
      exact .circleCircle _ _ _ _ hi ⟨b, hb, by simpa using hf⟩ ha ⟨b, hb, hg⟩

theorem made_boxCircle {ic ib : Nat} {c b : Body2} {r : ℝ} {rb : V2 ℝ} (hc : s.bodies[ic]? = some c) (hb : s.bodies[ib]? = some b)
    {l : List Contact2} (h : s.boxCircleNarrowPhaseCollision ic ib c b r rb = .ok l) {d : Contact2} (hd : d ∈ l) : Made junk s portals d := by
  unfold boxCircleNarrowPhaseCollision at h
  by_cases hcf : c.fixed = true
  · rw [if_pos hcf] at h; cases h
  rw [if_neg hcf] at h
  have hfc : s.Free ic := ⟨c, hc, by simpa using hcf⟩
  split at h
  · cases h; cases hd
  · by_cases hf : b.fixed = true
    · rw [if_neg (by simp [hf])] at h
      cases h
      rw [List.mem_singleton] at hd
      subst hd
      exact .kinematicCircle _ _ _ _ hfc ⟨b, hb, hf⟩
    · have hfb : s.Free ib := ⟨b, hb, by simpa using hf⟩
      rw [if_pos (by simp [hf])] at h
      split at h <;> cases h <;> rw [List.mem_singleton] at hd <;> subst hd
      · exact .bodyBody _ _ _ _ hfc hfb
      · exact .bodyBody _ _ _ _ hfb hfc

theorem made_boxBox {i j : Nat} {a b : Body2} {ra rb : V2 ℝ} (ha : s.bodies[i]? = some a) (hb : s.bodies[j]? = some b)
    {l : List Contact2} (h : s.boxBoxNarrowPhaseCollision i j a b ra rb = .ok l) {d : Contact2} (hd : d ∈ l) : Made junk s portals d := by
  unfold boxBoxNarrowPhaseCollision at h
  by_cases hf : (a.fixed || b.fixed) = true
  · rw [if_pos hf] at h; cases h
  rw [if_neg hf] at h
  simp only [Bool.or_eq_true, not_or, Bool.not_eq_true] at hf
  obtain ⟨r, _, h⟩ := Outcome.bind_ok_iff.mp h
  cases h
  obtain ⟨p, _, rfl⟩ := List.mem_map.mp hd
  exact .bodyBody _ _ _ _ ⟨a, ha, hf.1⟩ ⟨b, hb, hf.2⟩

theorem made_ordered {i j : Nat} {a b : Body2} (ha : s.bodies[i]? = some a) (hb : s.bodies[j]? = some b) (hf : a.fixed = false)
    {l : List Contact2} (h : s.dispatchOrdered i j a b = .ok l) {d : Contact2} (hd : d ∈ l) : Made junk s portals d := by
  unfold dispatchOrdered at h
  split at h
  · rename_i hga hgb
    cases h; exact made_circleCircle ⟨a, ha, hf⟩ hb ⟨a, ha, hga⟩ hgb hd
  · exact made_boxCircle ha hb h hd
  · exact made_boxCircle hb ha h hd
  · exact made_boxBox ha hb h hd

theorem made_dispatch {p : Nat × Nat} {l : List Contact2} (h : s.dispatchNarrowPhaseCollision p = .ok l) {d : Contact2} (hd : d ∈ l) :
    Made junk s portals d := by
  unfold dispatchNarrowPhaseCollision at h
  split at h
  · rename_i a b ha hb
    by_cases h1 : (a.fixed && b.fixed) = true
    · rw [if_pos h1] at h; cases h; cases hd
    rw [if_neg h1] at h
    by_cases h2 : a.fixed = true
    · rw [if_pos h2] at h
      exact made_ordered hb ha (by simpa [h2] using h1) h hd
    · rw [if_neg h2] at h
      exact made_ordered ha hb (by simpa using h2) h hd
  · cases h

theorem made_plane {c : Contact2} (h : c ∈ s.computeBodyPlaneActiveSetAllPairs) : Made junk s portals c := by
  unfold computeBodyPlaneActiveSetAllPairs at h
  simp only [List.mem_flatMap] at h
  obtain ⟨⟨p, k⟩, hp, ⟨b, i⟩, hb, h⟩ := h
  rw [List.mk_mem_zipIdx_iff_getElem?] at hp hb
  unfold bodyPlane at h
  by_cases hf : b.fixed = true
  · rw [if_pos hf] at h; cases h
  rw [if_neg hf] at h
  have hfree : s.Free i := ⟨b, hb, by simpa using hf⟩
  split at h
  · rename_i hg
    split at h
    · rw [List.mem_singleton] at h
      subst h
      exact .planeCircle _ _ _ _ hfree hp ⟨b, hb, hg⟩
    · cases h
  · rw [List.mem_filterMap] at h
    obtain ⟨e, _, h⟩ := h
    dsimp only at h
    split at h
    · cases h
      exact .planeBody _ _ _ _ hfree hp
    · cases h

theorem made_teleported {t : TeleportedCollision} {l : List Contact2} (h : s.dispatchTeleported junk portals t = .ok l) {d : Contact2}
    (hd : d ∈ l) : Made junk s portals d := by
  unfold dispatchTeleported at h
  split at h
  · rename_i a b ha hb
    by_cases h1 : (a.fixed || b.fixed) = true
    · rw [if_pos h1] at h; cases h
    rw [if_neg h1] at h
    simp only [Bool.or_eq_true, not_or, Bool.not_eq_true] at h1
    have hfa : s.Free t.fst.body := ⟨a, ha, h1.1⟩
    have hfb : s.Free t.snd.body := ⟨b, hb, h1.2⟩
    split at h
    · split at h
      · dsimp only at h
        split at h
        · cases h
          rw [List.mem_singleton] at hd
          subst hd
          exact .kick _ _ _ _ _ _ _ hfa hfb
        · split at h <;> cases h <;> rw [List.mem_singleton] at hd <;> subst hd
          · exact .kick _ _ _ _ _ _ _ hfa hfb
          · exact .teleported _ _ _ _ _ _ hfa hfb
      · cases h; cases hd
    · cases h
  · cases h

/-- What the loop over candidate pairs collects -/
theorem classifyAll_ok {tele : List TeleportedBall} : ∀ {pairs : List (Nat × Nat)} {acc out : List Contact2 × List TeleportedCollision},
    classifyAll junk s portals tele pairs acc = .ok out →
    (∀ c, c ∈ out.1 ↔ c ∈ acc.1 ∨ ∃ p ∈ pairs, ∃ r, classify2 junk s portals tele p = .ok r ∧ c ∈ r.1) ∧
    out.2 = (pairs.filterMap fun p => match classify2 junk s portals tele p with | .ok r => r.2 | _ => none).foldl
      (fun l c => insertCollision c l) acc.2 ∧
    ∀ p ∈ pairs, ∃ r, classify2 junk s portals tele p = .ok r
  | [], acc, out, h => by
    unfold classifyAll at h
    cases h
    simp
  | p :: ps, acc, out, h => by
    unfold classifyAll at h
    obtain ⟨r, h1, h⟩ := Outcome.bind_ok_iff.mp h
    obtain ⟨ih1, ih2, ih3⟩ := classifyAll_ok h
    refine ⟨?_, ?_, ?_⟩
    · intro c
      rw [ih1, List.mem_append]
      constructor
      · rintro ((hc | hc) | ⟨p', hp', r', h2, h3⟩)
        · exact Or.inl hc
        · exact Or.inr ⟨p, by simp, r, h1, hc⟩
        · exact Or.inr ⟨p', by simp [hp'], r', h2, h3⟩
      · rintro (hc | ⟨p', hp', r', h2, h3⟩)
        · exact Or.inl (Or.inl hc)
        · rcases List.mem_cons.mp hp' with rfl | hp'
          · rw [h1] at h2
            cases h2
            exact Or.inl (Or.inr h3)
          · exact Or.inr ⟨p', hp', r', h2, h3⟩
    · rw [ih2, List.filterMap_cons, h1]
      dsimp only
      cases r.2 <;> rfl
    · intro p' hp'
      rcases List.mem_cons.mp hp' with rfl | hp'
      · exact ⟨r, h1⟩
      · exact ih3 p' hp'

/-- Contacts collected in the loop over candidate pairs come from the ordinary narrow phase. -/
theorem classify2_contacts {tele : List TeleportedBall} {p : Nat × Nat} {r : List Contact2 × Option TeleportedCollision}
    (h : classify2 junk s portals tele p = .ok r) : r.1 = [] ∨ s.dispatchNarrowPhaseCollision p = .ok r.1 := by
  unfold classify2 at h
  dsimp only at h
  split at h
  · obtain ⟨cs, h1, h⟩ := Outcome.bind_ok_iff.mp h
    cases h
    exact Or.inr h1
  · split at h
    · obtain ⟨dup, _, h⟩ := Outcome.bind_ok_iff.mp h
      split at h
      · cases h; exact Or.inl rfl
      · obtain ⟨t, _, h⟩ := Outcome.bind_ok_iff.mp h
        cases h; exact Or.inl rfl
    · cases h
  · obtain ⟨t, _, h⟩ := Outcome.bind_ok_iff.mp h
    cases h; exact Or.inl rfl

/-- Every contact of the list was made in one of the ways above. -/
theorem made_activeSet {cs : List Contact2} (h : s.computeActiveSet2 junk portals = .ok cs) {c : Contact2} (hc : c ∈ cs) : Made junk s portals c := by
  unfold computeActiveSet2 at h
  obtain ⟨l, h1, h⟩ := Outcome.bind_ok_iff.mp h
  cases h
  rcases List.mem_append.mp hc with hc | hc
  · split at h1
    · unfold computeBodyBodyActiveSetSpatialGrid at h1
      obtain ⟨pairs, _, h1⟩ := Outcome.bind_ok_iff.mp h1
      obtain ⟨p, _, here, h2, h3⟩ := ((collect_ok h1).1 c).mp hc
      exact made_dispatch h2 h3
    · unfold computeBodyBodyActiveSetSpatialGridWithPortals at h1
      dsimp only at h1
      obtain ⟨pairs, _, h1⟩ := Outcome.bind_ok_iff.mp h1
      obtain ⟨r, hr, h1⟩ := Outcome.bind_ok_iff.mp h1
      obtain ⟨tl, ht, h1⟩ := Outcome.bind_ok_iff.mp h1
      cases h1
      rcases List.mem_append.mp hc with hc | hc
      · rcases ((classifyAll_ok hr).1 c).mp hc with hc | ⟨p, _, r', h2, h3⟩
        · cases hc
        · rcases classify2_contacts h2 with h4 | h4
          · rw [h4] at h3; cases h3
          · exact made_dispatch h4 h3
      · obtain ⟨t, _, here, h2, h3⟩ := ((collect_ok ht).1 c).mp hc
        exact made_teleported h2 h3
  · exact made_plane hc

/-! ## Contacts through portals -/

/-- An image through a portal is of a body whose box at the end of the step touches the plane. -/
def Touches (s : Step2) (portals : List (PlanarPortal ℝ)) (u : Image) : Prop :=
  ∀ k plane, u.via = some (k, plane) → ∃ p b, portals[k]? = some p ∧ s.bodies[u.body]? = some b ∧ aabbTouchesPortal p (s.endBox b u.body) = some plane

theorem imageOf_touches (n idx : Nat) : s.Touches portals (imageOf n ((s.teleportedBodies junk portals).map (·.1)) idx) := by
  intro k plane h
  unfold imageOf at h ⊢
  split at h
  · cases h
  · rename_i hlt
    rw [if_neg hlt]
    split at h
    · rename_i t ht
      cases h
      rw [List.getElem?_map] at ht
      obtain ⟨⟨t', bx⟩, ht', rfl⟩ := Option.map_eq_some_iff.mp ht
      have hm := List.mem_of_getElem? ht'
      unfold teleportedBodies at hm
      simp only [List.mem_flatMap, List.mem_filterMap] at hm
      obtain ⟨⟨p, prtl⟩, hp, ⟨b, i⟩, hb, hm⟩ := hm
      rw [List.mk_mem_zipIdx_iff_getElem?] at hp hb
      obtain ⟨pl, hpl, hm⟩ := Option.map_eq_some_iff.mp hm
      cases hm
      exact ⟨p, b, hp, hb, hpl⟩
    · cases h

theorem mem_insertCollision {c d : TeleportedCollision} : ∀ {l : List TeleportedCollision}, d ∈ insertCollision c l → d = c ∨ d ∈ l
  | [], h => by
    unfold insertCollision at h
    exact Or.inl (List.mem_singleton.mp h)
  | e :: l, h => by
    unfold insertCollision at h
    split at h
    · rcases List.mem_cons.mp h with h | h
      · exact Or.inl h
      · exact Or.inr h
    · split at h
      · rcases List.mem_cons.mp h with h | h
        · exact Or.inr (by simp [h])
        · rcases mem_insertCollision h with h | h
          · exact Or.inl h
          · exact Or.inr (by simp [h])
      · exact Or.inr h

theorem mem_foldl_insertCollision {d : TeleportedCollision} : ∀ {l acc : List TeleportedCollision},
    d ∈ l.foldl (fun l c => insertCollision c l) acc → d ∈ l ∨ d ∈ acc
  | [], acc, h => Or.inr h
  | c :: l, acc, h => by
    rw [List.foldl_cons] at h
    rcases mem_foldl_insertCollision h with h | h
    · exact Or.inl (by simp [h])
    · rcases mem_insertCollision h with h | h
      · exact Or.inl (by simp [h])
      · exact Or.inr h

theorem classifyTeleported_some {i j : Image} {c : TeleportedCollision} (h : classifyTeleported junk s portals i j = .ok (some c)) :
    c = mkTeleportedCollision2 i j := by
  unfold classifyTeleported at h
  split at h
  · split at h
    · cases h
    · obtain ⟨act, _, h⟩ := Outcome.bind_ok_iff.mp h
      cases act
      · cases h
      · cases h
        rfl
  · cases h

theorem classify2_some {tele : List TeleportedBall} {p : Nat × Nat} {r : List Contact2 × Option TeleportedCollision} {c : TeleportedCollision}
    (h : classify2 junk s portals tele p = .ok r) (hc : r.2 = some c) :
    c = mkTeleportedCollision2 (imageOf s.bodies.length tele p.1) (imageOf s.bodies.length tele p.2) ∧
      ((imageOf s.bodies.length tele p.1).via ≠ none ∨ (imageOf s.bodies.length tele p.2).via ≠ none) := by
  unfold classify2 at h
  dsimp only at h
  split at h
  · obtain ⟨cs, _, h⟩ := Outcome.bind_ok_iff.mp h
    cases h
    cases hc
  · rename_i h1 h2
    refine ⟨?_, Or.inl (by rw [h1]; simp)⟩
    split at h
    · obtain ⟨dup, _, h⟩ := Outcome.bind_ok_iff.mp h
      split at h
      · cases h; cases hc
      · obtain ⟨t, ht, h⟩ := Outcome.bind_ok_iff.mp h
        cases h
        subst hc
        exact classifyTeleported_some ht
    · cases h
  · rename_i h1 h2
    obtain ⟨t, ht, h⟩ := Outcome.bind_ok_iff.mp h
    cases h
    subst hc
    refine ⟨classifyTeleported_some ht, ?_⟩
    by_contra hne
    push Not at hne
    exact h1 hne.1 hne.2

/-- The ordinary narrow phase makes neither contacts through portals nor contacts with planes. -/
theorem dispatch_direct {p : Nat × Nat} {l : List Contact2} (h : s.dispatchNarrowPhaseCollision p = .ok l) {c : Contact2} (hcl : c ∈ l) :
    c.Direct ∧ c.planePair = none := by
  unfold dispatchNarrowPhaseCollision at h
  have hord : ∀ {i j : Nat} {a b : Body2}, s.dispatchOrdered i j a b = .ok l → c.Direct ∧ c.planePair = none := by
    intro i j a b h
    have hbc : ∀ {i j : Nat} {a b : Body2} {r : ℝ} {rb : V2 ℝ}, s.boxCircleNarrowPhaseCollision i j a b r rb = .ok l →
        c.Direct ∧ c.planePair = none := by
      intro i j a b r rb h
      unfold boxCircleNarrowPhaseCollision at h
      split at h
      · cases h
      · split at h
        · cases h; cases hcl
        · split at h
          · split at h <;> cases h <;> rw [List.mem_singleton] at hcl <;> subst hcl <;> exact ⟨trivial, rfl⟩
          · cases h
            rw [List.mem_singleton] at hcl
            subst hcl
            exact ⟨trivial, rfl⟩
    unfold dispatchOrdered at h
    split at h
    · cases h
      unfold circleCircleNarrowPhaseCollision at hcl
      dsimp only at hcl
      split at hcl
      · cases hcl
      · split at hcl <;> rw [List.mem_singleton] at hcl <;> subst hcl <;> exact ⟨trivial, rfl⟩
    · exact hbc h
    · exact hbc h
    · unfold boxBoxNarrowPhaseCollision at h
      split at h
      · cases h
      · obtain ⟨r, _, h⟩ := Outcome.bind_ok_iff.mp h
        cases h
        obtain ⟨p, _, rfl⟩ := List.mem_map.mp hcl
        exact ⟨trivial, rfl⟩
  split at h
  · split at h
    · cases h; cases hcl
    · split at h
      · exact hord h
      · exact hord h
  · cases h

theorem dispatchTeleported_planePair {t : TeleportedCollision} {l : List Contact2} (h : s.dispatchTeleported junk portals t = .ok l) {d : Contact2}
    (hd : d ∈ l) : d.planePair = none := by
  unfold dispatchTeleported at h
  split at h
  · split at h
    · cases h
    split at h
    · split at h
      · dsimp only at h
        split at h
        · cases h
          rw [List.mem_singleton] at hd
          subst hd
          rfl
        · split at h <;> cases h <;> rw [List.mem_singleton] at hd <;> subst hd <;> rfl
      · cases h; cases hd
    · cases h
  · cases h

theorem dispatchTeleported_not_direct {t : TeleportedCollision} {l : List Contact2} (h : s.dispatchTeleported junk portals t = .ok l) {d : Contact2}
    (hd : d ∈ l) : ¬d.Direct := by
  unfold dispatchTeleported at h
  split at h
  · split at h
    · cases h
    split at h
    · split at h
      · dsimp only at h
        split at h
        · cases h
          rw [List.mem_singleton] at hd
          subst hd
          exact fun h => h
        · split at h <;> cases h <;> rw [List.mem_singleton] at hd <;> subst hd <;> exact fun h => h
      · cases h; cases hd
    · cases h
  · cases h

theorem planeContact_pair {c : Contact2} (hc : c ∈ s.computeBodyPlaneActiveSetAllPairs) : ∃ ik, c.planePair = some ik := by
  unfold computeBodyPlaneActiveSetAllPairs at hc
  simp only [List.mem_flatMap] at hc
  obtain ⟨⟨p, k⟩, _, ⟨b, i⟩, _, hc⟩ := hc
  unfold bodyPlane at hc
  split at hc
  · cases hc
  · split at hc
    · split at hc
      · rw [List.mem_singleton] at hc
        subst hc
        exact ⟨_, rfl⟩
      · cases hc
    · rw [List.mem_filterMap] at hc
      obtain ⟨e, _, hc⟩ := hc
      dsimp only at hc
      split at hc <;> cases hc
      exact ⟨_, rfl⟩

/-- Without portals no contact goes through one. -/
theorem direct_of_no_portals {cs : List Contact2} (h : s.computeActiveSet2 junk [] = .ok cs) {c : Contact2} (hc : c ∈ cs) : c.Direct := by
  unfold computeActiveSet2 at h
  obtain ⟨l, h1, h⟩ := Outcome.bind_ok_iff.mp h
  cases h
  rcases List.mem_append.mp hc with hc | hc
  · rw [if_pos (by simp)] at h1
    unfold computeBodyBodyActiveSetSpatialGrid at h1
    obtain ⟨pairs, _, h1⟩ := Outcome.bind_ok_iff.mp h1
    obtain ⟨p, _, here, h2, h3⟩ := ((collect_ok h1).1 c).mp hc
    exact (dispatch_direct h2 h3).1
  · obtain ⟨ik, hik⟩ := planeContact_pair hc
    cases c <;> first | trivial | cases hik

/-- The list is made of contacts between bodies, followed by the contacts with planes. -/
theorem activeSet_split {cs : List Contact2} (h : s.computeActiveSet2 junk portals = .ok cs) :
    ∃ l, cs = l ++ s.computeBodyPlaneActiveSetAllPairs ∧ ∀ c ∈ l, c.planePair = none := by
  unfold computeActiveSet2 at h
  obtain ⟨l, h1, h⟩ := Outcome.bind_ok_iff.mp h
  cases h
  refine ⟨l, rfl, fun c hc => ?_⟩
  split at h1
  · unfold computeBodyBodyActiveSetSpatialGrid at h1
    obtain ⟨pairs, _, h1⟩ := Outcome.bind_ok_iff.mp h1
    obtain ⟨p, _, here, h2, h3⟩ := ((collect_ok h1).1 c).mp hc
    exact (dispatch_direct h2 h3).2
  · unfold computeBodyBodyActiveSetSpatialGridWithPortals at h1
    dsimp only at h1
    obtain ⟨pairs, _, h1⟩ := Outcome.bind_ok_iff.mp h1
    obtain ⟨r, hr, h1⟩ := Outcome.bind_ok_iff.mp h1
    obtain ⟨tl, ht, h1⟩ := Outcome.bind_ok_iff.mp h1
    cases h1
    rcases List.mem_append.mp hc with hc | hc
    · rcases ((classifyAll_ok hr).1 c).mp hc with hc | ⟨p, _, r', h2, h3⟩
      · cases hc
      · rcases classify2_contacts h2 with h4 | h4
        · rw [h4] at h3; cases h3
        · exact (dispatch_direct h4 h3).2
    · obtain ⟨t, _, here, h2, h3⟩ := ((collect_ok ht).1 c).mp hc
      exact dispatchTeleported_planePair h2 h3

/-- What a contact through a portal is made from -/
theorem teleported_data {cs : List Contact2} (h : s.computeActiveSet2 junk portals = .ok cs) {c : Contact2} (hc : c ∈ cs) (hd : ¬c.Direct) :
    ∃ t : TeleportedCollision, s.Touches portals t.fst ∧ s.Touches portals t.snd ∧ (t.fst.via ≠ none ∨ t.snd.via ≠ none) ∧
      ∃ l, s.dispatchTeleported junk portals t = .ok l ∧ c ∈ l := by
  have hordinary : ∀ {p : Nat × Nat} {l : List Contact2}, s.dispatchNarrowPhaseCollision p = .ok l → c ∈ l → False :=
    fun h hcl => hd (dispatch_direct h hcl).1
  unfold computeActiveSet2 at h
  obtain ⟨l, h1, h⟩ := Outcome.bind_ok_iff.mp h
  cases h
  rcases List.mem_append.mp hc with hc | hc
  · split at h1
    · unfold computeBodyBodyActiveSetSpatialGrid at h1
      obtain ⟨pairs, _, h1⟩ := Outcome.bind_ok_iff.mp h1
      obtain ⟨p, _, here, h2, h3⟩ := ((collect_ok h1).1 c).mp hc
      exact (hordinary h2 h3).elim
    · unfold computeBodyBodyActiveSetSpatialGridWithPortals at h1
      dsimp only at h1
      obtain ⟨pairs, _, h1⟩ := Outcome.bind_ok_iff.mp h1
      obtain ⟨r, hr, h1⟩ := Outcome.bind_ok_iff.mp h1
      obtain ⟨tl, ht, h1⟩ := Outcome.bind_ok_iff.mp h1
      cases h1
      rcases List.mem_append.mp hc with hc | hc
      · rcases ((classifyAll_ok hr).1 c).mp hc with hc | ⟨p, _, r', h2, h3⟩
        · cases hc
        · rcases classify2_contacts h2 with h4 | h4
          · rw [h4] at h3; cases h3
          · exact (hordinary h4 h3).elim
      · obtain ⟨t, htm, here, h2, h3⟩ := ((collect_ok ht).1 c).mp hc
        have hset := (classifyAll_ok hr).2.1
        rw [hset] at htm
        rcases mem_foldl_insertCollision htm with htm | htm
        · obtain ⟨p, _, hp⟩ := List.mem_filterMap.mp htm
          split at hp
          · rename_i r' hr'
            obtain ⟨rfl, hv⟩ := classify2_some hr' hp
            unfold mkTeleportedCollision2 at h2
            split at h2
            · exact ⟨_, imageOf_touches _ _, imageOf_touches _ _, hv, here, h2, h3⟩
            · exact ⟨_, imageOf_touches _ _, imageOf_touches _ _, hv.symm, here, h2, h3⟩
          · cases hp
        · cases htm
  · exfalso
    apply hd
    unfold computeBodyPlaneActiveSetAllPairs at hc
    simp only [List.mem_flatMap] at hc
    obtain ⟨⟨p, k⟩, hp, ⟨b, i⟩, hb, hc⟩ := hc
    unfold bodyPlane at hc
    split at hc
    · cases hc
    · split at hc
      · split at hc
        · rw [List.mem_singleton] at hc
          subst hc
          trivial
        · cases hc
      · rw [List.mem_filterMap] at hc
        obtain ⟨e, _, hc⟩ := hc
        dsimp only at hc
        split at hc <;> cases hc
        trivial

theorem imageCenter2_eq (q : Dofs) (u : Image) : imageCenter2 junk portals q u = u.centre junk portals q := by
  obtain ⟨body, via⟩ := u
  unfold imageCenter2 Image.centre Image.see
  cases via with
  | none => rfl
  | some kp =>
    obtain ⟨k, plane⟩ := kp
    dsimp only
    cases portals[k]? with
    | none => rfl
    | some p => cases plane <;> simp [teleportPoint, seg2]

/-- The velocity that the portal of an image adds -/
noncomputable def portalVelocity (portals : List (PlanarPortal ℝ)) (u : Image) : V2 ℝ :=
  match u.via with
  | none => 0
  | some (k, plane) =>
    match portals[k]? with
    | none => 0
    | some p => kickOf p plane

theorem portalVelocity_slides {u : Image} {p : PlanarPortal ℝ} {b : Body2} (ht : s.Touches portals u) (hb : s.bodies[u.body]? = some b)
    (hs : u.slides portals = some p) : getKinematicVelocityOfAABB p (s.endBox b u.body) = portalVelocity portals u := by
  unfold Image.slides at hs
  unfold portalVelocity
  split at hs
  · cases hs
  · rename_i k plane hv
    obtain ⟨p', b', hp', hb', htouch⟩ := ht k plane hv
    rw [hv]
    dsimp only
    rw [hp'] at hs ⊢
    dsimp only at hs ⊢
    split at hs
    · cases hs
      rw [hb] at hb'
      cases hb'
      unfold aabbTouchesPortal at htouch
      unfold getKinematicVelocityOfAABB kickOf
      split at htouch
      · rename_i ha
        cases htouch
        rw [if_pos ha]
        simp
      · rename_i ha
        split at htouch
        · cases htouch
          rw [if_neg ha]
          simp
        · cases htouch
    · cases hs

theorem portalVelocity_static {u : Image} (hs : u.slides portals = none) : portalVelocity portals u = 0 := by
  unfold Image.slides at hs
  unfold portalVelocity
  split at hs
  · rename_i hv
    rw [hv]
  · rename_i k plane hv
    rw [hv]
    dsimp only
    split at hs
    · rename_i hp
      rw [hp]
    · rename_i p hp
      rw [hp]
      dsimp only
      split at hs
      · cases hs
      · rename_i hle
        have hz : p.v = 0 := by simpa [PlanarPortal.isLeesEdwards] using hle
        unfold kickOf
        rw [hz]
        split <;> ext <;> simp

theorem Free.lt {i : Nat} (h : s.Free i) : i < s.bodies.length := by
  obtain ⟨b, hb, _⟩ := h
  exact (List.getElem?_eq_some_iff.mp hb).1

end Step2

/-! ## Sums over the degrees of freedom -/

theorem sum_three (f : Nat → ℝ) : ∀ n, ∑ k ∈ Finset.range (3 * n), f k = ∑ b ∈ Finset.range n, (f (3 * b) + f (3 * b + 1) + f (3 * b + 2))
  | 0 => by simp
  | n + 1 => by
    rw [Finset.sum_range_succ, ← sum_three f n, show 3 * (n + 1) = 3 * n + 1 + 1 + 1 by ring, Finset.sum_range_succ, Finset.sum_range_succ,
      Finset.sum_range_succ]
    ring

theorem power_row (nb i : Nat) (hi : i < nb) (r : Contact2.Row × Contact2.Row) (alpha beta : ℝ) (v : Dofs) :
    power nb (rowImpulse i r alpha beta) v =
      alpha * (r.1.lin.x * v (3 * i) + r.1.lin.y * v (3 * i + 1) + r.1.ang * v (3 * i + 2)) +
      beta * (r.2.lin.x * v (3 * i) + r.2.lin.y * v (3 * i + 1) + r.2.ang * v (3 * i + 2)) := by
  unfold power
  rw [sum_three (fun k => rowImpulse i r alpha beta k * v k), Finset.sum_eq_single i]
  · simp only [rowImpulse, if_true]
    rw [if_neg (by omega), if_neg (by omega), if_neg (by omega)]
    ring
  · intro b _ hb
    simp only [rowImpulse]
    rw [if_neg (by omega), if_neg (by omega), if_neg (by omega), if_neg (by omega), if_neg (by omega), if_neg (by omega), if_neg (by omega),
      if_neg (by omega), if_neg (by omega)]
    ring
  · intro hb
    exact absurd (Finset.mem_range.mpr hi) hb

theorem power_sub (nb : Nat) (f g v : Dofs) : power nb (fun k => f k - g k) v = power nb f v - power nb g v := by
  simp [power, sub_mul]

/-- Rows of the form `( b, r x b )` act like an impulse at the end of the arm `r`. -/
theorem rowImpulse_eq (i : Nat) (n t x P : V2 ℝ) (a b alpha beta : ℝ) (ha : a = (P.x - x.x) * n.y - (P.y - x.y) * n.x)
    (hb : b = (P.x - x.x) * t.y - (P.y - x.y) * t.x) :
    rowImpulse i (⟨n, a⟩, ⟨t, b⟩) alpha beta = impulseAbout x i P (alpha • n + beta • t) := by
  funext k
  unfold rowImpulse impulseAbout
  by_cases h0 : k = 3 * i
  · rw [if_pos h0, if_pos h0]; simp
  rw [if_neg h0, if_neg h0]
  by_cases h1 : k = 3 * i + 1
  · rw [if_pos h1, if_pos h1]; simp
  rw [if_neg h1, if_neg h1]
  by_cases h2 : k = 3 * i + 2
  · rw [if_pos h2, if_pos h2]
    subst ha hb
    simp
    ring
  rw [if_neg h2, if_neg h2]

theorem totalLinear_row (nb i : Nat) (hi : i < nb) (r : Contact2.Row × Contact2.Row) (alpha beta : ℝ) :
    totalLinear nb (rowImpulse i r alpha beta) = alpha • r.1.lin + beta • r.2.lin := by
  have h1 : ∑ b ∈ Finset.range nb, rowImpulse i r alpha beta (3 * b) = alpha * r.1.lin.x + beta * r.2.lin.x := by
    rw [Finset.sum_eq_single i]
    · simp [rowImpulse]
    · intro b _ hb
      unfold rowImpulse
      rw [if_neg (by omega), if_neg (by omega), if_neg (by omega)]
    · intro hb
      exact absurd (Finset.mem_range.mpr hi) hb
  have h2 : ∑ b ∈ Finset.range nb, rowImpulse i r alpha beta (3 * b + 1) = alpha * r.1.lin.y + beta * r.2.lin.y := by
    rw [Finset.sum_eq_single i]
    · simp [rowImpulse]
    · intro b _ hb
      unfold rowImpulse
      rw [if_neg (by omega), if_neg (by omega), if_neg (by omega)]
    · intro hb
      exact absurd (Finset.mem_range.mpr hi) hb
  unfold totalLinear
  rw [h1, h2]
  ext <;> simp

theorem totalAngular_row (nb i : Nat) (hi : i < nb) (q : Dofs) (r : Contact2.Row × Contact2.Row) (alpha beta : ℝ) :
    totalAngular nb q (rowImpulse i r alpha beta) =
      alpha * (q (3 * i) * r.1.lin.y - q (3 * i + 1) * r.1.lin.x + r.1.ang) + beta * (q (3 * i) * r.2.lin.y - q (3 * i + 1) * r.2.lin.x + r.2.ang) := by
  unfold totalAngular
  rw [Finset.sum_eq_single i]
  · simp only [rowImpulse, if_true]
    rw [if_neg (by omega), if_neg (by omega), if_neg (by omega)]
    ring
  · intro b _ hb
    simp only [rowImpulse]
    rw [if_neg (by omega), if_neg (by omega), if_neg (by omega), if_neg (by omega), if_neg (by omega), if_neg (by omega), if_neg (by omega),
      if_neg (by omega), if_neg (by omega)]
    ring
  · intro hb
    exact absurd (Finset.mem_range.mpr hi) hb

theorem totalLinear_sub (nb : Nat) (f g : Dofs) : totalLinear nb (fun k => f k - g k) = totalLinear nb f - totalLinear nb g := by
  ext <;> simp [totalLinear]

theorem totalAngular_sub (nb : Nat) (q f g : Dofs) : totalAngular nb q (fun k => f k - g k) = totalAngular nb q f - totalAngular nb q g := by
  unfold totalAngular
  rw [← Finset.sum_sub_distrib]
  refine Finset.sum_congr rfl fun b _ => ?_
  ring

/-- The normalised difference is parallel to the difference. -/
theorem normalized_cross (d : V2 ℝ) (a : ℝ) : (a • d).cross d.normalized = 0 := by
  unfold V2.normalized
  split <;> simp [V2.cross] <;> ring

end Scisim
