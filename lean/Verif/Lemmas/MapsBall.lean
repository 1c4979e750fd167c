import Verif.Lemmas.Maps
import Verif.Lemmas.BallContactLists
import Verif.Props.ImpulseCache
/-!
# Lemmas: identity of contacts and the caches of the simulations
-/

namespace Scisim

/-! ## The caches obey the law of a map -/

/-- a map of impulses without an order on sizes -/
structure BallCache.Ordered (s : BallCache) : Prop where
  a : s.ballBall.Sorted
  b : s.planeBall.Sorted
  c : s.drumBall.Sorted

theorem ballCache_lawful : ballCacheSys.Lawful Contact.cacheKey := by
  refine ⟨BallCache.Ordered, BallCache.look, ⟨⟨List.Pairwise.nil, List.Pairwise.nil, List.Pairwise.nil⟩, fun d => by cases d <;> rfl⟩, ?_, ?_⟩
  · intro k c r k' hk hs
    simp only [ballCacheSys] at hs
    generalize c.cacheKey = key at hs ⊢
    cases key with
    | ballBall i j =>
      simp only [BallCache.store, Outcome.ok.injEq] at hs
      subst hs
      refine ⟨⟨ImpulseMap.insert_sorted hk.a _ _, hk.b, hk.c⟩, fun d => ?_⟩
      cases d <;> simp only [BallCache.look, ImpulseMap.find_insert hk.a, BallContact.ballBall.injEq, Prod.mk.injEq, reduceCtorEq, if_false]
      rename_i i' j'
      by_cases h : i = i' ∧ j = j'
      · rw [if_pos h, if_pos ⟨h.1.symm, h.2.symm⟩]
      · rw [if_neg h, if_neg fun h' => h ⟨h'.1.symm, h'.2.symm⟩]
    | planeBall i j =>
      simp only [BallCache.store, Outcome.ok.injEq] at hs
      subst hs
      refine ⟨⟨hk.a, ImpulseMap.insert_sorted hk.b _ _, hk.c⟩, fun d => ?_⟩
      cases d <;> simp only [BallCache.look, ImpulseMap.find_insert hk.b, BallContact.planeBall.injEq, Prod.mk.injEq, reduceCtorEq, if_false]
      rename_i i' j'
      by_cases h : i = i' ∧ j = j'
      · rw [if_pos h, if_pos ⟨h.1.symm, h.2.symm⟩]
      · rw [if_neg h, if_neg fun h' => h ⟨h'.1.symm, h'.2.symm⟩]
    | drumBall i j =>
      simp only [BallCache.store, Outcome.ok.injEq] at hs
      subst hs
      refine ⟨⟨hk.a, hk.b, ImpulseMap.insert_sorted hk.c _ _⟩, fun d => ?_⟩
      cases d <;> simp only [BallCache.look, ImpulseMap.find_insert hk.c, BallContact.drumBall.injEq, Prod.mk.injEq, reduceCtorEq, if_false]
      rename_i i' j'
      by_cases h : i = i' ∧ j = j'
      · rw [if_pos h, if_pos ⟨h.1.symm, h.2.symm⟩]
      · rw [if_neg h, if_neg fun h' => h ⟨h'.1.symm, h'.2.symm⟩]
    | other => simp [BallCache.store] at hs
  · intro k c n r hk hg
    simp only [ballCacheSys] at hg
    have hne : c.cacheKey ≠ .other := by
      intro e; rw [e] at hg; simp [BallCache.get] at hg
    rw [BallCache.get_eq k _ hne] at hg
    simp only [Outcome.ok.injEq] at hg
    rw [← hg]
    cases k.look c.cacheKey <;> rfl

/-- What the 2D rigid body cache goes by: it does not see the number of the contact point. -/
def RB2DContact.key : RB2DContact → RB2DContact
  | .kinematicCircle a b => if a ≤ b then .kinematicCircle a b else .kinematicCircle b a
  | .bodyBody i j _ => .bodyBody i j 0
  | c => c

theorem RB2DContact.key_kinematic (a b : UInt32) :
    (RB2DContact.kinematicCircle a b).key = if a ≤ b then .kinematicCircle a b else .kinematicCircle b a := rfl

/-- rigidbody2d/RigidBody2DSim.cpp: the impulse cache of the 2D rigid body simulation -/
def rb2dCacheSys : CacheSys RB2DContact RB2DCache F64 where
  clear := RB2DCache.clear
  store := RB2DCache.store
  get := RB2DCache.get

structure RB2DCache.Ordered (s : RB2DCache) : Prop where
  a : s.circleCircle.Sorted
  b : s.bodyBody.Sorted
  c : s.kinematicCircle.Sorted
  d : s.planeCircle.Sorted

theorem if_flip {α : Type} {p q : Prop} [Decidable p] [Decidable q] (h : p ↔ q) (a b : α) : (if p then a else b) = if q then a else b := by
  by_cases hp : p
  · rw [if_pos hp, if_pos (h.mp hp)]
  · rw [if_neg hp, if_neg fun hq => hp (h.mpr hq)]

theorem sortedKey_of_key {a b a' b' : UInt32} (hs : a' ≤ b') :
    sortedKey a b = (a', b') ↔ (RB2DContact.kinematicCircle a' b' = (RB2DContact.kinematicCircle a b).key) := by
  unfold sortedKey RB2DContact.key
  by_cases h : a ≤ b
  · simp only [if_pos h, Prod.mk.injEq, RB2DContact.kinematicCircle.injEq]; constructor <;> (rintro ⟨rfl, rfl⟩; exact ⟨rfl, rfl⟩)
  · simp only [if_neg h, Prod.mk.injEq, RB2DContact.kinematicCircle.injEq]; constructor <;> (rintro ⟨rfl, rfl⟩; exact ⟨rfl, rfl⟩)

/-- what the cache holds under a key -/
def RB2DCache.lookKey (c : RB2DCache) : RB2DContact → Option Impulse
  | .circleCircle i j => c.circleCircle.find (i, j)
  | .bodyBody i j p => if p = 0 then c.bodyBody.find (i, j) else none
  | .kinematicCircle a b => if a ≤ b then c.kinematicCircle.find (a, b) else none
  | .planeCircle p b => c.planeCircle.find (p, b)
  | .other => none

theorem rb2dCache_lawful : rb2dCacheSys.Lawful RB2DContact.key := by
  refine ⟨RB2DCache.Ordered, RB2DCache.lookKey, ⟨⟨List.Pairwise.nil, List.Pairwise.nil, List.Pairwise.nil, List.Pairwise.nil⟩, fun d => ?_⟩, ?_, ?_⟩
  · cases d with
    | bodyBody i j p => simp only [RB2DCache.lookKey]; split <;> rfl
    | kinematicCircle a b => simp only [RB2DCache.lookKey]; split <;> rfl
    | _ => rfl
  · intro k c r k' hk hs
    simp only [rb2dCacheSys] at hs
    cases c with
    | circleCircle i j =>
      simp only [RB2DCache.store, Outcome.ok.injEq] at hs
      subst hs
      refine ⟨⟨ImpulseMap.insert_sorted hk.a _ _, hk.b, hk.c, hk.d⟩, fun d => ?_⟩
      cases d <;> simp only [RB2DCache.lookKey, RB2DContact.key, ImpulseMap.find_insert hk.a, RB2DContact.circleCircle.injEq, Prod.mk.injEq, reduceCtorEq, if_false]
      exact if_flip ⟨fun h => ⟨h.1.symm, h.2.symm⟩, fun h => ⟨h.1.symm, h.2.symm⟩⟩ _ _
    | bodyBody i j p =>
      simp only [RB2DCache.store, Outcome.ok.injEq] at hs
      subst hs
      refine ⟨⟨hk.a, ImpulseMap.insert_sorted hk.b _ _, hk.c, hk.d⟩, fun d => ?_⟩
      cases d <;> simp only [RB2DCache.lookKey, RB2DContact.key, ImpulseMap.find_insert hk.b, RB2DContact.bodyBody.injEq, Prod.mk.injEq, reduceCtorEq, if_false]
      rename_i i' j' p'
      by_cases hp : p' = 0
      · simp only [if_pos hp]
        exact if_flip ⟨fun h => ⟨h.1.symm, h.2.symm, hp⟩, fun h => ⟨h.1.symm, h.2.1.symm⟩⟩ _ _
      · simp only [if_neg hp]
        rw [if_neg fun h => hp h.2.2]
    | kinematicCircle a b =>
      simp only [RB2DCache.store, Outcome.ok.injEq] at hs
      subst hs
      refine ⟨⟨hk.a, hk.b, ImpulseMap.insert_sorted hk.c _ _, hk.d⟩, fun d => ?_⟩
      cases d with
      | kinematicCircle a' b' =>
        simp only [RB2DCache.lookKey, ImpulseMap.find_insert hk.c]
        by_cases hs : a' ≤ b'
        · simp only [if_pos hs]
          exact if_flip (sortedKey_of_key hs) _ _
        · simp only [if_neg hs]
          rw [if_neg]
          intro e
          rw [RB2DContact.key_kinematic] at e
          by_cases h : a ≤ b
          · rw [if_pos h] at e; cases e; exact hs h
          · rw [if_neg h] at e; cases e
            rw [UInt32.le_iff_toNat_le] at h hs
            omega
      | circleCircle _ _ => rw [if_neg (by rw [RB2DContact.key_kinematic]; split <;> exact fun e => by cases e)]; rfl
      | bodyBody _ _ _ => rw [if_neg (by rw [RB2DContact.key_kinematic]; split <;> exact fun e => by cases e)]; rfl
      | planeCircle _ _ => rw [if_neg (by rw [RB2DContact.key_kinematic]; split <;> exact fun e => by cases e)]; rfl
      | other => rw [if_neg (by rw [RB2DContact.key_kinematic]; split <;> exact fun e => by cases e)]; rfl
    | planeCircle i j =>
      simp only [RB2DCache.store, Outcome.ok.injEq] at hs
      subst hs
      refine ⟨⟨hk.a, hk.b, hk.c, ImpulseMap.insert_sorted hk.d _ _⟩, fun d => ?_⟩
      cases d <;> simp only [RB2DCache.lookKey, RB2DContact.key, ImpulseMap.find_insert hk.d, RB2DContact.planeCircle.injEq, Prod.mk.injEq, reduceCtorEq, if_false]
      exact if_flip ⟨fun h => ⟨h.1.symm, h.2.symm⟩, fun h => ⟨h.1.symm, h.2.symm⟩⟩ _ _
    | other => simp [RB2DCache.store] at hs
  · intro k c n r hk hg
    simp only [rb2dCacheSys] at hg
    have hne : c ≠ .other := by intro e; rw [e] at hg; simp [RB2DCache.get] at hg
    rw [RB2DCache.get_eq k _ hne] at hg
    simp only [Outcome.ok.injEq] at hg
    rw [← hg]
    have : k.look c = k.lookKey c.key := by
      cases c with
      | kinematicCircle a b =>
        rw [RB2DContact.key_kinematic]
        by_cases h : a ≤ b
        · simp only [RB2DCache.look, RB2DCache.lookKey, sortedKey, if_pos h]
        · have h' : b ≤ a := by rw [UInt32.le_iff_toNat_le] at *; omega
          simp only [RB2DCache.look, RB2DCache.lookKey, sortedKey, if_neg h, if_pos h']
      | _ => rfl
    rw [this]
    cases k.lookKey c.key <;> rfl

/-- rigidbody3d/RigidBody3DSim.cpp: the impulse cache of the 3D rigid body simulation -/
def rb3dCacheSys : CacheSys RB3DContact RB3DCache F64 where
  clear := RB3DCache.clear
  store := RB3DCache.store
  get := RB3DCache.get

structure RB3DCache.Ordered (s : RB3DCache) : Prop where
  a : s.sphereSphere.Sorted
  b : s.planeSphere.Sorted
  c : s.cylinderSphere.Sorted
  d : s.kinematicSphere.Sorted

theorem rb3dCache_lawful : rb3dCacheSys.Lawful (id : RB3DContact → RB3DContact) := by
  refine ⟨RB3DCache.Ordered, RB3DCache.look, ⟨⟨List.Pairwise.nil, List.Pairwise.nil, List.Pairwise.nil, List.Pairwise.nil⟩, fun d => by cases d <;> rfl⟩, ?_, ?_⟩
  · intro k c r k' hk hs
    simp only [rb3dCacheSys] at hs
    cases c with
    | sphereSphere i j =>
      simp only [RB3DCache.store, Outcome.ok.injEq] at hs
      subst hs
      refine ⟨⟨ImpulseMap.insert_sorted hk.a _ _, hk.b, hk.c, hk.d⟩, fun d => ?_⟩
      cases d <;> simp only [RB3DCache.look, id_eq, ImpulseMap.find_insert hk.a, RB3DContact.sphereSphere.injEq, Prod.mk.injEq, reduceCtorEq, if_false]
      exact if_flip ⟨fun h => ⟨h.1.symm, h.2.symm⟩, fun h => ⟨h.1.symm, h.2.symm⟩⟩ _ _
    | planeSphere i j =>
      simp only [RB3DCache.store, Outcome.ok.injEq] at hs
      subst hs
      refine ⟨⟨hk.a, ImpulseMap.insert_sorted hk.b _ _, hk.c, hk.d⟩, fun d => ?_⟩
      cases d <;> simp only [RB3DCache.look, id_eq, ImpulseMap.find_insert hk.b, RB3DContact.planeSphere.injEq, Prod.mk.injEq, reduceCtorEq, if_false]
      exact if_flip ⟨fun h => ⟨h.1.symm, h.2.symm⟩, fun h => ⟨h.1.symm, h.2.symm⟩⟩ _ _
    | cylinderSphere i j =>
      simp only [RB3DCache.store, Outcome.ok.injEq] at hs
      subst hs
      refine ⟨⟨hk.a, hk.b, ImpulseMap.insert_sorted hk.c _ _, hk.d⟩, fun d => ?_⟩
      cases d <;> simp only [RB3DCache.look, id_eq, ImpulseMap.find_insert hk.c, RB3DContact.cylinderSphere.injEq, Prod.mk.injEq, reduceCtorEq, if_false]
      exact if_flip ⟨fun h => ⟨h.1.symm, h.2.symm⟩, fun h => ⟨h.1.symm, h.2.symm⟩⟩ _ _
    | kinematicSphere i j =>
      simp only [RB3DCache.store, Outcome.ok.injEq] at hs
      subst hs
      refine ⟨⟨hk.a, hk.b, hk.c, ImpulseMap.insert_sorted hk.d _ _⟩, fun d => ?_⟩
      cases d <;> simp only [RB3DCache.look, id_eq, ImpulseMap.find_insert hk.d, RB3DContact.kinematicSphere.injEq, Prod.mk.injEq, reduceCtorEq, if_false]
      exact if_flip ⟨fun h => ⟨h.1.symm, h.2.symm⟩, fun h => ⟨h.1.symm, h.2.symm⟩⟩ _ _
    | other => simp [RB3DCache.store] at hs
  · intro k c n r hk hg
    simp only [rb3dCacheSys] at hg
    have hne : c ≠ .other := by intro e; rw [e] at hg; simp [RB3DCache.get] at hg
    rw [RB3DCache.get_eq k _ hne] at hg
    simp only [Outcome.ok.injEq] at hg
    rw [← hg, id_eq]
    cases k.look c <;> rfl

/-! ## Contacts of the ball simulation are different -/

theorem who_nodup {cs : List Contact} (ht : ∀ c, .ballBall c ∈ cs → c.teleported = false) (hb : (ballPairs false cs).Nodup)
    (hp : (planePairs cs).Nodup) (hd : (drumPairs cs).Nodup) : (cs.map Contact.who).Nodup := by
  induction cs with
  | nil => simp
  | cons c cs ih =>
    rw [List.map_cons, List.nodup_cons]
    have htail : (cs.map Contact.who).Nodup := by
      refine ih (fun c' h => ht c' (List.mem_cons_of_mem _ h)) ?_ ?_ ?_
      · exact hb.sublist (List.Sublist.filterMap _ (List.sublist_cons_self c cs))
      · exact hp.sublist (List.Sublist.filterMap _ (List.sublist_cons_self c cs))
      · exact hd.sublist (List.Sublist.filterMap _ (List.sublist_cons_self c cs))
    refine ⟨fun hm => ?_, htail⟩
    obtain ⟨c', hc', he⟩ := List.mem_map.mp hm
    cases c with
    | ballBall a =>
      cases c' with
      | ballBall b =>
        simp only [Contact.who, BallContactId.balls.injEq] at he
        have hta := ht a List.mem_cons_self
        have : (a.idx0, a.idx1) ∈ ballPairs false cs := List.mem_filterMap.mpr ⟨_, hc', by simp [he.1, he.2.1, he.2.2, hta]⟩
        simp only [ballPairs, List.filterMap_cons, hta, if_true, List.nodup_cons] at hb
        exact hb.1 this
      | _ => simp [Contact.who] at he
    | plane i n k =>
      cases c' with
      | plane i' n' k' =>
        simp only [Contact.who, BallContactId.plane.injEq] at he
        have : (i, k) ∈ planePairs cs := List.mem_filterMap.mpr ⟨_, hc', by simp [he.1, he.2]⟩
        simp only [planePairs, List.filterMap_cons, List.nodup_cons] at hp
        exact hp.1 this
      | _ => simp [Contact.who] at he
    | drum i n k =>
      cases c' with
      | drum i' n' k' =>
        simp only [Contact.who, BallContactId.drum.injEq] at he
        have : (i, k) ∈ drumPairs cs := List.mem_filterMap.mpr ⟨_, hc', by simp [he.1, he.2]⟩
        simp only [drumPairs, List.filterMap_cons, List.nodup_cons] at hd
        exact hd.1 this
      | _ => simp [Contact.who] at he

/-- the indices of a contact fit in 32 bits, and it is not a teleported one -/
def Contact.Small : Contact → Prop
  | .ballBall c => c.idx0 < 4294967296 ∧ c.idx1 < 4294967296 ∧ c.teleported = false ∧ c.kick = none
  | .plane i _ k => i < 4294967296 ∧ k < 4294967296
  | .drum i _ k => i < 4294967296 ∧ k < 4294967296

theorem UInt32.ofNat_inj_small {a b : Nat} (ha : a < 4294967296) (hb : b < 4294967296) : UInt32.ofNat a = UInt32.ofNat b ↔ a = b := by
  constructor
  · intro h
    have := congrArg UInt32.toNat h
    rwa [UInt32.toNat_ofNat_of_lt' (by simpa using ha), UInt32.toNat_ofNat_of_lt' (by simpa using hb)] at this
  · rintro rfl; rfl

theorem cacheKey_iff {c c' : Contact} (h : c.Small) (h' : c'.Small) : c.cacheKey = c'.cacheKey ↔ c.who = c'.who := by
  cases c <;> cases c' <;> simp only [Contact.Small] at h h' <;>
    simp [Contact.cacheKey, Contact.who, h, h', UInt32.ofNat_inj_small]

theorem storeAll_small {k k' : BallCache} {cs : List Contact} {vecs : List Impulse} (h : storeAll ballCacheSys k cs vecs = .ok k') :
    ∀ c, .ballBall c ∈ cs → c.teleported = false ∧ c.kick = none := by
  induction cs generalizing k vecs with
  | nil => simp
  | cons c cs ih =>
    cases vecs with
    | nil => simp [storeAll] at h
    | cons r rs =>
      rw [storeAll] at h
      obtain ⟨k1, h1, h2⟩ := Outcome.bind_ok_iff.mp h
      intro b hb
      rcases List.mem_cons.mp hb with rfl | hb
      · simp only [ballCacheSys, Contact.cacheKey] at h1
        cases ht : b.teleported with
        | true => simp [ht, BallCache.store] at h1
        | false =>
          cases hk : b.kick with
          | some v => simp [ht, hk, BallCache.store] at h1
          | none => exact ⟨rfl, rfl⟩
      · exact ih h2 b hb

theorem narrowPhase_form {bs : List BallStep} {p : Nat × Nat} {c : Contact} (h : narrowPhase bs p = some c) :
    ∃ a b, bs[p.1]? = some a ∧ bs[p.2]? = some b ∧ c = .ballBall (mkBallBall p.1 p.2 a.q0 b.q0 a.r b.r false) := by
  unfold narrowPhase at h
  split at h
  · split at h
    · cases h; exact ⟨_, _, by assumption, by assumption, rfl⟩
    · cases h
  · cases h

theorem overlaps_nodup {bs : List (Box 2 ℝ)} {s : List (Nat × Nat)} (h : getPotentialOverlaps bs = .ok s) : s.Nodup := by
  unfold getPotentialOverlaps at h
  obtain ⟨g, _, h⟩ := Outcome.bind_ok_iff.mp h
  obtain ⟨vs, _, h⟩ := Outcome.bind_ok_iff.mp h
  cases h
  exact sorted_nodup (collectPairs_ok bs _ [] List.Pairwise.nil).1

/-- pairs of a list of contacts that come from different pairs are different -/
theorem ballPairs_nodup_of {s : List (Nat × Nat)} (hs : s.Nodup) (f : Nat × Nat → Option Contact)
    (hf : ∀ p c, f p = some c → ∃ b, c = .ballBall b ∧ (b.idx0, b.idx1) = p) : (ballPairs false (s.filterMap f)).Nodup := by
  unfold ballPairs
  rw [List.filterMap_filterMap]
  refine hs.filterMap ?_
  intro p p' q hq hq'
  simp only [Option.mem_def, Option.bind_eq_some_iff] at hq hq'
  obtain ⟨c, hc, hq⟩ := hq
  obtain ⟨c', hc', hq'⟩ := hq'
  obtain ⟨b, rfl, rfl⟩ := hf p c hc
  obtain ⟨b', rfl, rfl⟩ := hf p' c' hc'
  simp only at hq hq'
  split at hq <;> split at hq' <;> simp_all

/-- contacts that a cache accepts: each is listed once, and the indices fit -/
theorem activeSet_small {junk : ℝ → ℤ} {bs : List BallStep} {planes : List (HalfPlane ℝ)} {drums : List Drum} {portals : List (PlanarPortal ℝ)}
    (hb : bs.length < 4294967296) (hp : planes.length < 4294967296) (hd : drums.length < 4294967296) {cs : List Contact}
    (h : computeActiveSet junk bs planes drums portals = .ok cs) (ht : ∀ c, .ballBall c ∈ cs → c.teleported = false ∧ c.kick = none) :
    (∀ c ∈ cs, c.Small) ∧ (cs.map Contact.who).Nodup := by
  unfold computeActiveSet at h
  obtain ⟨balls, hballs, h⟩ := Outcome.bind_ok_iff.mp h
  cases h
  have key : ∃ (s : List (Nat × Nat)) (f : Nat × Nat → Option Contact), s.Nodup ∧ balls = s.filterMap f ∧
      ∀ p c, f p = some c → ∃ b, c = .ballBall b ∧ (b.idx0, b.idx1) = p ∧ b.idx0 < bs.length ∧ b.idx1 < bs.length := by
    split at hballs
    · unfold computeBallBallActiveSetSpatialGrid at hballs
      obtain ⟨s, hs, hballs⟩ := Outcome.bind_ok_iff.mp hballs
      cases hballs
      refine ⟨s, _, overlaps_nodup hs, rfl, fun p c hc => ?_⟩
      obtain ⟨a, b, ha, hb, rfl⟩ := narrowPhase_form hc
      exact ⟨_, rfl, rfl, (List.getElem?_eq_some_iff.mp ha).1, (List.getElem?_eq_some_iff.mp hb).1⟩
    · unfold computeBallBallActiveSetSpatialGridWithPortals at hballs
      obtain ⟨r, hr, hballs⟩ := Outcome.bind_ok_iff.mp hballs
      cases hballs
      unfold portalCollisions at hr
      obtain ⟨tele, _, hr⟩ := Outcome.bind_ok_iff.mp hr
      obtain ⟨s, hs, hr⟩ := Outcome.bind_ok_iff.mp hr
      cases hr
      rw [foldl_classify]
      have hnil : ∀ l : List TeleportedCollision, (∀ c ∈ l.filterMap (generateTeleported junk portals bs), ∃ b : BallBall, c = .ballBall b ∧ b.teleported = true) := by
        intro l c hc
        obtain ⟨t, _, ht⟩ := List.mem_filterMap.mp hc
        unfold generateTeleported at ht
        split at ht
        · simp only at ht
          split at ht
          · cases ht; exact ⟨_, rfl, rfl⟩
          · split at ht
            · cases ht; exact ⟨_, rfl, rfl⟩
            · cases ht; exact ⟨_, rfl, rfl⟩
        · cases ht
      rw [foldl_classify] at ht
      refine ⟨s, ordinaryOf bs (tele.map (·.1)), overlaps_nodup hs, ?_, fun p c hc => ?_⟩
      · have : ∀ l : List Contact, (∀ c ∈ l, ∃ b : BallBall, c = .ballBall b ∧ b.teleported = true) →
            (∀ c, .ballBall c ∈ l → c.teleported = false ∧ c.kick = none) → l = [] := by
          intro l h1 h2
          rw [List.eq_nil_iff_forall_not_mem]
          intro c hc
          obtain ⟨b, rfl, hb⟩ := h1 c hc
          rw [(h2 b hc).1] at hb
          cases hb
        simp only [List.nil_append]
        rw [this _ (hnil _) fun c hc => ht c (by simp only [List.mem_append]; exact Or.inl (Or.inl (Or.inr hc))), List.append_nil]
      · obtain ⟨a, b, ha, hb, rfl, _⟩ := ordinaryOf_form hc
        exact ⟨_, rfl, rfl, (List.getElem?_eq_some_iff.mp ha).1, (List.getElem?_eq_some_iff.mp hb).1⟩
  obtain ⟨s, f, hs, rfl, hf⟩ := key
  have hform : ∀ c ∈ s.filterMap f, ∃ b, c = .ballBall b ∧ b.idx0 < bs.length ∧ b.idx1 < bs.length := by
    intro c hc
    obtain ⟨p, _, hp⟩ := List.mem_filterMap.mp hc
    obtain ⟨b, h1, _, h2, h3⟩ := hf p c hp
    exact ⟨b, h1, h2, h3⟩
  have hpp : planePairs (s.filterMap f) = [] := by
    unfold planePairs; rw [List.filterMap_eq_nil_iff]; intro c hc; obtain ⟨b, rfl, _⟩ := hform c hc; rfl
  have hdp : drumPairs (s.filterMap f) = [] := by
    unfold drumPairs; rw [List.filterMap_eq_nil_iff]; intro c hc; obtain ⟨b, rfl, _⟩ := hform c hc; rfl
  constructor
  · intro c hc
    rcases List.mem_append.mp hc with hc' | hc'
    · rcases List.mem_append.mp hc' with hc'' | hc''
      · obtain ⟨b, rfl, h1, h2⟩ := hform c hc''
        exact ⟨by omega, by omega, ht b hc⟩
      · unfold drumContacts at hc''
        obtain ⟨⟨d, di⟩, hd', hx⟩ := List.mem_flatMap.mp hc''
        obtain ⟨⟨b, bi⟩, hb', hx⟩ := List.mem_filterMap.mp hx
        simp only at hx
        split at hx
        · cases hx
          have h1 := (List.getElem?_eq_some_iff.mp (List.mem_zipIdx_iff_getElem?.mp hb')).1
          have h2 := (List.getElem?_eq_some_iff.mp (List.mem_zipIdx_iff_getElem?.mp hd')).1
          exact ⟨by simp only at h1; omega, by simp only at h2; omega⟩
        · cases hx
    · unfold planeContacts at hc'
      obtain ⟨⟨d, di⟩, hd', hx⟩ := List.mem_flatMap.mp hc'
      obtain ⟨⟨b, bi⟩, hb', hx⟩ := List.mem_filterMap.mp hx
      simp only at hx
      split at hx
      · cases hx
        have h1 := (List.getElem?_eq_some_iff.mp (List.mem_zipIdx_iff_getElem?.mp hb')).1
        have h2 := (List.getElem?_eq_some_iff.mp (List.mem_zipIdx_iff_getElem?.mp hd')).1
        exact ⟨by simp only at h1; omega, by simp only at h2; omega⟩
      · cases hx
  · refine who_nodup (fun c hc => (ht c hc).1) ?_ ?_ ?_
    · rw [ballPairs_append, ballPairs_append, ballPairs_drum, ballPairs_plane, List.append_nil, List.append_nil]
      exact ballPairs_nodup_of hs f fun p c hc => by obtain ⟨b, h1, h2, _⟩ := hf p c hc; exact ⟨b, h1, h2⟩
    · rw [planePairs_append, planePairs_append, hpp, planePairs_drum, List.nil_append, List.nil_append, planePairs_eq]
      exact pairs_nodup bs planes fun b p => planeIsActive b.q1 b.r p
    · rw [drumPairs_append, drumPairs_append, hdp, drumPairs_plane, List.nil_append, List.append_nil, drumPairs_eq]
      exact pairs_nodup bs drums fun b p => drumIsActive b.q1 b.r p

end Scisim
