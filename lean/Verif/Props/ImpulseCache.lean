import Verif.Lemmas.ImpulseCache
/-!
# C09 — the impulse cache behaves as a map

`expected con none ops` (Spec/ImpulseCache.lean) is the impulse the history `ops` gave to the contact `con` since the
last clear.
-/

namespace Scisim

/-! ## 2D balls -/

/-- One operation on the ball cache object. -/
def BallCache.step (c : BallCache) : CacheOp BallContact → Outcome BallCache
  | .store con r => c.store con r
  | .clear => .ok BallCache.clear
  | .saveLoad => (deBallCache.run (serBallCache c)).bind fun p => .ok p.1

def BallCache.look (c : BallCache) : BallContact → Option Impulse
  | .ballBall i j => c.ballBall.find (i, j)
  | .planeBall p b => c.planeBall.find (p, b)
  | .drumBall d b => c.drumBall.find (d, b)
  | .other => none

theorem BallCache.get_eq (c : BallCache) (con : BallContact) (h : con ≠ .other) (n : Nat) :
    c.get con n = .ok (orZero n (c.look con)) := by
  cases con <;> first | rfl | exact absurd rfl h

theorem BallCache.step_spec (n : Nat) (s : BallCache) (op : CacheOp BallContact)
    (hi : s.Wf ∧ s.ballBall.length ≤ n ∧ s.planeBall.length ≤ n ∧ s.drumBall.length ≤ n) (hb : n + 1 < 4294967296)
    (hg : ∀ con r, op = .store con r → con ≠ .other ∧ r.length < 9223372036854775808) :
    ∃ s', s.step op = .ok s' ∧
      (s'.Wf ∧ s'.ballBall.length ≤ n + 1 ∧ s'.planeBall.length ≤ n + 1 ∧ s'.drumBall.length ≤ n + 1) ∧
      ∀ con, s'.look con = expected con (s.look con) [op] := by
  obtain ⟨hw, l1, l2, l3⟩ := hi
  cases op with
  | store con r =>
    obtain ⟨h1, h2⟩ := hg con r rfl
    cases con with
    | ballBall i j =>
      have hw' := ImpulseMap.wf_insert (k := (i, j)) hw.a l1 hb h2
      refine ⟨_, rfl, ⟨⟨hw'.1, hw.b, hw.c⟩, hw'.2, Nat.le_succ_of_le l2, Nat.le_succ_of_le l3⟩, fun con => ?_⟩
      cases con <;> simp only [BallCache.look, expected, ImpulseMap.find_insert hw.a.sorted,
        BallContact.ballBall.injEq, Prod.mk.injEq, reduceCtorEq, if_false] <;> congr
    | planeBall i j =>
      have hw' := ImpulseMap.wf_insert (k := (i, j)) hw.b l2 hb h2
      refine ⟨_, rfl, ⟨⟨hw.a, hw'.1, hw.c⟩, Nat.le_succ_of_le l1, hw'.2, Nat.le_succ_of_le l3⟩, fun con => ?_⟩
      cases con <;> simp only [BallCache.look, expected, ImpulseMap.find_insert hw.b.sorted,
        BallContact.planeBall.injEq, Prod.mk.injEq, reduceCtorEq, if_false] <;> congr
    | drumBall i j =>
      have hw' := ImpulseMap.wf_insert (k := (i, j)) hw.c l3 hb h2
      refine ⟨_, rfl, ⟨⟨hw.a, hw.b, hw'.1⟩, Nat.le_succ_of_le l1, Nat.le_succ_of_le l2, hw'.2⟩, fun con => ?_⟩
      cases con <;> simp only [BallCache.look, expected, ImpulseMap.find_insert hw.c.sorted,
        BallContact.drumBall.injEq, Prod.mk.injEq, reduceCtorEq, if_false] <;> congr
    | other => exact absurd rfl h1
  | clear =>
    refine ⟨_, rfl, ⟨⟨ImpulseMap.wf_nil, ImpulseMap.wf_nil, ImpulseMap.wf_nil⟩, by simp [BallCache.clear], by simp [BallCache.clear],
      by simp [BallCache.clear]⟩, fun con => ?_⟩
    cases con <;> rfl
  | saveLoad =>
    refine ⟨s, ?_, ⟨hw, by omega, by omega, by omega⟩, fun con => rfl⟩
    have := reads_ballCache s hw []
    rw [List.append_nil] at this
    simp only [BallCache.step, Dec.run]
    rw [this]; rfl

/-- **2D balls.** After any history of stores, clears and save/load cycles, asking for a contact returns the impulse
stored for that contact since the last clear, and a zero vector of the requested size if there is none.  (Fewer than 2^32
operations; stored contacts are of the kinds the cache supports.) -/
theorem C09_ball_cache (ops : List (CacheOp BallContact)) (hlen : ops.length < 4294967296)
    (hok : ∀ con r, CacheOp.store con r ∈ ops → con ≠ .other ∧ r.length < 9223372036854775808) :
    ∃ c, runOps BallCache.step BallCache.clear ops = .ok c ∧
      ∀ con, con ≠ .other → ∀ n, c.get con n = .ok (orZero n (expected con none ops)) := by
  obtain ⟨c, h1, h2⟩ := runOps_refines (look := BallCache.look) (bound := 4294967296)
    (Good := fun op => ∀ con r, op = .store con r → con ≠ .other ∧ r.length < 9223372036854775808)
    BallCache.step_spec ops 0 BallCache.clear
    ⟨⟨ImpulseMap.wf_nil, ImpulseMap.wf_nil, ImpulseMap.wf_nil⟩, by simp [BallCache.clear], by simp [BallCache.clear], by simp [BallCache.clear]⟩
    (by omega) (fun op ho con r e => hok con r (e ▸ ho))
  refine ⟨c, h1, fun con hc n => ?_⟩
  rw [BallCache.get_eq c con hc, h2]
  cases con <;> rfl

/-- A history with two kinds of contacts sharing indices, a clear, and a save/load. -/
example : ∃ c, runOps BallCache.step BallCache.clear
      [.store (.ballBall 0 1) [⟨5⟩], .clear, .store (.ballBall 0 1) [⟨7⟩], .store (.planeBall 0 1) [⟨9⟩], .saveLoad] = .ok c ∧
    c.get (.ballBall 0 1) 1 = .ok [⟨7⟩] ∧ c.get (.planeBall 0 1) 1 = .ok [⟨9⟩] ∧
    c.get (.drumBall 0 1) 2 = .ok [⟨0⟩, ⟨0⟩] := by
  obtain ⟨c, h, hg⟩ := C09_ball_cache
    [.store (.ballBall 0 1) [⟨5⟩], .clear, .store (.ballBall 0 1) [⟨7⟩], .store (.planeBall 0 1) [⟨9⟩], .saveLoad]
    (by decide) (by
      intro con r h
      simp only [List.mem_cons, CacheOp.store.injEq, reduceCtorEq, List.not_mem_nil, or_false, false_or] at h
      rcases h with ⟨rfl, rfl⟩ | ⟨rfl, rfl⟩ | ⟨rfl, rfl⟩ <;> exact ⟨by decide, by decide⟩)
  exact ⟨c, h, by rw [hg _ (by decide)]; rfl, by rw [hg _ (by decide)]; rfl, by rw [hg _ (by decide)]; rfl⟩

/-- Contacts of any other kind (e.g. teleported ones) end the process instead of being answered wrongly. -/
theorem C09_ball_unsupported (c : BallCache) (r : Impulse) (n : Nat) :
    c.store .other r = .exit ∧ c.get .other n = .exit := ⟨rfl, rfl⟩

/-! ## 2D rigid bodies -/

def RB2DCache.step (c : RB2DCache) : CacheOp RB2DContact → Outcome RB2DCache
  | .store con r => c.store con r
  | .clear => .ok RB2DCache.clear
  | .saveLoad => (deRB2DCache.run (serRB2DCache c)).bind fun p => .ok p.1

/-- The same physical contact: a kinematic-object contact is the same whichever of the two bodies is named first. -/
def RB2DContact.Same : RB2DContact → RB2DContact → Prop
  | .kinematicCircle a b, .kinematicCircle a' b' => (a = a' ∧ b = b') ∨ (a = b' ∧ b = a')
  | c, c' => c = c'

/-- Representative of the physical contact: smaller body first. -/
def RB2DContact.ident : RB2DContact → RB2DContact
  | .kinematicCircle a b => if a ≤ b then .kinematicCircle a b else .kinematicCircle b a
  | c => c

theorem RB2DContact.same_iff (c c' : RB2DContact) : c.Same c' ↔ c.ident = c'.ident := by
  cases c with
  | kinematicCircle a b =>
    cases c' with
    | kinematicCircle a' b' =>
      simp only [RB2DContact.Same, RB2DContact.ident, UInt32.le_iff_toNat_le, ← UInt32.toNat_inj]
      split <;> split <;> simp only [RB2DContact.kinematicCircle.injEq, ← UInt32.toNat_inj] <;> omega
    | _ => simp only [RB2DContact.Same, RB2DContact.ident]; split <;> simp
  | _ =>
    cases c' with
    | kinematicCircle a' b' => simp only [RB2DContact.Same, RB2DContact.ident]; split <;> simp
    | _ => simp [RB2DContact.Same, RB2DContact.ident]

instance (c c' : RB2DContact) : Decidable (c.Same c') := decidable_of_iff _ (RB2DContact.same_iff c c').symm

def CacheOp.ident : CacheOp RB2DContact → CacheOp RB2DContact
  | .store con r => .store con.ident r
  | op => op

def RB2DCache.look (c : RB2DCache) : RB2DContact → Option Impulse
  | .circleCircle i j => c.circleCircle.find (i, j)
  | .bodyBody i j _ => c.bodyBody.find (i, j)
  | .kinematicCircle a b => c.kinematicCircle.find (sortedKey a b)
  | .planeCircle p b => c.planeCircle.find (p, b)
  | .other => none

theorem RB2DCache.get_eq (c : RB2DCache) (con : RB2DContact) (h : con ≠ .other) (n : Nat) :
    c.get con n = .ok (orZero n (c.look con)) := by
  cases con <;> first | rfl | exact absurd rfl h

theorem sortedKey_eq_iff (a b a' b' : UInt32) :
    sortedKey a b = sortedKey a' b' ↔ (a = a' ∧ b = b') ∨ (a = b' ∧ b = a') := by
  unfold sortedKey
  simp only [UInt32.le_iff_toNat_le, ← UInt32.toNat_inj]
  split <;> split <;> simp only [Prod.mk.injEq, ← UInt32.toNat_inj] <;> omega

/-- Contacts the rigid body cache can tell apart: supported kinds, at most one contact point (number 0) per pair of
bodies for general body-body contacts. -/
def RB2DContact.Distinguishable : RB2DContact → Prop
  | .bodyBody _ _ point => point = 0
  | .other => False
  | _ => True

/-- The impulse a history gave to a physical contact since the last clear. -/
def expectedRB2D (con : RB2DContact) (ops : List (CacheOp RB2DContact)) : Option Impulse :=
  expected con.ident none (ops.map CacheOp.ident)

theorem RB2DCache.step_spec (n : Nat) (s : RB2DCache) (op : CacheOp RB2DContact)
    (hi : s.Wf ∧ s.circleCircle.length ≤ n ∧ s.bodyBody.length ≤ n ∧ s.kinematicCircle.length ≤ n ∧
      s.planeCircle.length ≤ n) (hb : n + 1 < 4294967296)
    (hg : ∀ con r, op = .store con r → con.Distinguishable ∧ r.length < 9223372036854775808) :
    ∃ s', s.step op = .ok s' ∧
      (s'.Wf ∧ s'.circleCircle.length ≤ n + 1 ∧ s'.bodyBody.length ≤ n + 1 ∧ s'.kinematicCircle.length ≤ n + 1 ∧
        s'.planeCircle.length ≤ n + 1) ∧
      ∀ con, con.Distinguishable → s'.look con = expected con.ident (s.look con) [op.ident] := by
  obtain ⟨hw, l1, l2, l3, l4⟩ := hi
  cases op with
  | store con r =>
    obtain ⟨h1, h2⟩ := hg con r rfl
    have key : ∀ con', con'.Distinguishable → expected con'.ident (s.look con') [(CacheOp.store con r).ident] =
        if con.Same con' then (s.look con').or (some r) else s.look con' := by
      intro con' _
      simp only [CacheOp.ident, expected]
      by_cases h : con.Same con'
      · rw [if_pos ((RB2DContact.same_iff _ _).mp h), if_pos h]
      · rw [if_neg (fun e => h ((RB2DContact.same_iff _ _).mpr e)), if_neg h]
    cases con with
    | circleCircle i j =>
      have hw' := ImpulseMap.wf_insert (k := (i, j)) hw.a l1 hb h2
      refine ⟨_, rfl, ⟨⟨hw'.1, hw.b, hw.c, hw.d⟩, hw'.2, Nat.le_succ_of_le l2, Nat.le_succ_of_le l3, Nat.le_succ_of_le l4⟩, fun con hc => ?_⟩
      rw [key con hc]
      cases con <;> simp only [RB2DCache.look, RB2DContact.Same, ImpulseMap.find_insert hw.a.sorted,
        RB2DContact.circleCircle.injEq, Prod.mk.injEq, reduceCtorEq, if_false] <;> congr
    | bodyBody i j p =>
      have hw' := ImpulseMap.wf_insert (k := (i, j)) hw.b l2 hb h2
      refine ⟨_, rfl, ⟨⟨hw.a, hw'.1, hw.c, hw.d⟩, Nat.le_succ_of_le l1, hw'.2, Nat.le_succ_of_le l3, Nat.le_succ_of_le l4⟩, fun con hc => ?_⟩
      rw [key con hc]
      cases con with
      | bodyBody i' j' p' =>
        simp only [RB2DContact.Distinguishable] at hc h1
        subst hc; subst h1
        simp only [RB2DCache.look, RB2DContact.Same, ImpulseMap.find_insert hw.b.sorted,
          RB2DContact.bodyBody.injEq, Prod.mk.injEq, and_true]
      | _ => simp only [RB2DCache.look, RB2DContact.Same, reduceCtorEq, if_false]
    | kinematicCircle a b =>
      have hw' := ImpulseMap.wf_insert (k := sortedKey a b) hw.c l3 hb h2
      refine ⟨_, rfl, ⟨⟨hw.a, hw.b, hw'.1, hw.d⟩, Nat.le_succ_of_le l1, Nat.le_succ_of_le l2, hw'.2, Nat.le_succ_of_le l4⟩, fun con hc => ?_⟩
      rw [key con hc]
      cases con <;> simp only [RB2DCache.look, RB2DContact.Same, ImpulseMap.find_insert hw.c.sorted,
        sortedKey_eq_iff, reduceCtorEq, if_false] <;> congr
    | planeCircle i j =>
      have hw' := ImpulseMap.wf_insert (k := (i, j)) hw.d l4 hb h2
      refine ⟨_, rfl, ⟨⟨hw.a, hw.b, hw.c, hw'.1⟩, Nat.le_succ_of_le l1, Nat.le_succ_of_le l2, Nat.le_succ_of_le l3, hw'.2⟩, fun con hc => ?_⟩
      rw [key con hc]
      cases con <;> simp only [RB2DCache.look, RB2DContact.Same, ImpulseMap.find_insert hw.d.sorted,
        RB2DContact.planeCircle.injEq, Prod.mk.injEq, reduceCtorEq, if_false] <;> congr
    | other => exact absurd h1 (by simp [RB2DContact.Distinguishable])
  | clear =>
    refine ⟨_, rfl, ⟨⟨ImpulseMap.wf_nil, ImpulseMap.wf_nil, ImpulseMap.wf_nil, ImpulseMap.wf_nil⟩, by simp [RB2DCache.clear], by simp [RB2DCache.clear],
      by simp [RB2DCache.clear], by simp [RB2DCache.clear]⟩, fun con _ => ?_⟩
    cases con <;> rfl
  | saveLoad =>
    refine ⟨s, ?_, ⟨hw, by omega, by omega, by omega, by omega⟩, fun con _ => rfl⟩
    have := reads_rb2dCache s hw []
    rw [List.append_nil] at this
    simp only [RB2DCache.step, Dec.run]
    rw [this]; rfl

theorem expected_cons {C : Type} [DecidableEq C] (con : C) (cur : Option Impulse) (op : CacheOp C)
    (ops : List (CacheOp C)) : expected con (expected con cur [op]) ops = expected con cur (op :: ops) := by
  cases op <;> rfl

/-- **2D rigid bodies**, part of the property: the cache answers every history correctly as long as general body-body
contacts have one contact point per pair. Missing: pairs with two contact points, for which the property is false
(`C09_box_contacts_confused`). -/
theorem C09_rb2d_cache_partial (ops : List (CacheOp RB2DContact)) (hlen : ops.length < 4294967296)
    (hok : ∀ con r, CacheOp.store con r ∈ ops → con.Distinguishable ∧ r.length < 9223372036854775808) :
    ∃ c, runOps RB2DCache.step RB2DCache.clear ops = .ok c ∧
      ∀ con, con.Distinguishable → ∀ n, c.get con n = .ok (orZero n (expectedRB2D con ops)) := by
  have gen : ∀ (ops : List (CacheOp RB2DContact)) (n : Nat) (s : RB2DCache),
      (s.Wf ∧ s.circleCircle.length ≤ n ∧ s.bodyBody.length ≤ n ∧ s.kinematicCircle.length ≤ n ∧
        s.planeCircle.length ≤ n) → n + ops.length < 4294967296 →
      (∀ con r, CacheOp.store con r ∈ ops → con.Distinguishable ∧ r.length < 9223372036854775808) →
      ∃ c, runOps RB2DCache.step s ops = .ok c ∧
        ∀ con, con.Distinguishable → c.look con = expected con.ident (s.look con) (ops.map CacheOp.ident) := by
    intro ops
    induction ops with
    | nil => exact fun n s _ _ _ => ⟨s, rfl, fun _ _ => rfl⟩
    | cons op ops ih =>
      intro n s hi hb hok
      simp only [List.length_cons] at hb
      obtain ⟨s1, h1, hi1, hl1⟩ := RB2DCache.step_spec n s op hi (by omega)
        (fun con r e => hok con r (by rw [e]; simp))
      obtain ⟨s2, h2, hl2⟩ := ih (n + 1) s1 hi1 (by omega) (fun con r hm => hok con r (by simp [hm]))
      refine ⟨s2, by rw [runOps, h1]; exact h2, fun con hc => ?_⟩
      rw [hl2 con hc, hl1 con hc, expected_cons]; rfl
  obtain ⟨c, h1, h2⟩ := gen ops 0 RB2DCache.clear ⟨⟨ImpulseMap.wf_nil, ImpulseMap.wf_nil, ImpulseMap.wf_nil, ImpulseMap.wf_nil⟩, by simp [RB2DCache.clear],
    by simp [RB2DCache.clear], by simp [RB2DCache.clear], by simp [RB2DCache.clear]⟩ (by omega) hok
  refine ⟨c, h1, fun con hc n => ?_⟩
  have hne : con ≠ .other := by intro e; subst e; exact hc
  rw [RB2DCache.get_eq c con hne, h2 con hc]
  have : RB2DCache.look RB2DCache.clear con = none := by cases con <;> rfl
  rw [this]; rfl

example : ∃ c, runOps RB2DCache.step RB2DCache.clear
      [.store (.kinematicCircle 5 2) [⟨7⟩], .store (.bodyBody 2 5 0) [⟨9⟩], .saveLoad] = .ok c ∧
    c.get (.kinematicCircle 2 5) 1 = .ok [⟨7⟩] ∧ c.get (.bodyBody 2 5 0) 1 = .ok [⟨9⟩] ∧
    c.get (.circleCircle 2 5) 1 = .ok [⟨0⟩] := by
  obtain ⟨c, h, hg⟩ := C09_rb2d_cache_partial
    [.store (.kinematicCircle 5 2) [⟨7⟩], .store (.bodyBody 2 5 0) [⟨9⟩], .saveLoad] (by decide) (by
      intro con r h
      simp only [List.mem_cons, CacheOp.store.injEq, reduceCtorEq, List.not_mem_nil, or_false] at h
      rcases h with ⟨rfl, rfl⟩ | ⟨rfl, rfl⟩ <;> exact ⟨by simp [RB2DContact.Distinguishable], by decide⟩)
  exact ⟨c, h, by rw [hg _ (by simp [RB2DContact.Distinguishable])]; rfl,
    by rw [hg _ (by simp [RB2DContact.Distinguishable])]; rfl,
    by rw [hg _ (by simp [RB2DContact.Distinguishable])]; rfl⟩

/-- **The property is false for boxes resting on two points.** Storing impulses `[1]` and `[2]` for the two contact points of one pair
of bodies and asking for the second point returns the first point's impulse. -/
theorem C09_box_contacts_confused :
    ∃ c, runOps RB2DCache.step RB2DCache.clear
      [.store (.bodyBody 0 1 0) [⟨1⟩], .store (.bodyBody 0 1 1) [⟨2⟩]] = .ok c ∧
      c.get (.bodyBody 0 1 1) 1 = .ok [⟨1⟩] ∧
      orZero 1 (expectedRB2D (.bodyBody 0 1 1)
        [.store (.bodyBody 0 1 0) [⟨1⟩], .store (.bodyBody 0 1 1) [⟨2⟩]]) = [⟨2⟩] :=
  ⟨_, rfl, by decide, by decide⟩

/-- Contacts of unsupported kinds (a box on a static plane, teleported contacts) end the process. -/
theorem C09_rb2d_unsupported (c : RB2DCache) (r : Impulse) (n : Nat) :
    c.store .other r = .exit ∧ c.get .other n = .exit := ⟨rfl, rfl⟩

/-! ## 3D rigid bodies -/

/-- One operation on the 3D rigid body cache object. -/
def RB3DCache.step (c : RB3DCache) : CacheOp RB3DContact → Outcome RB3DCache
  | .store con r => c.store con r
  | .clear => .ok RB3DCache.clear
  | .saveLoad => (deRB3DCache.run (serRB3DCache c)).bind fun p => .ok p.1

def RB3DCache.look (c : RB3DCache) : RB3DContact → Option Impulse
  | .sphereSphere i j => c.sphereSphere.find (i, j)
  | .planeSphere p b => c.planeSphere.find (p, b)
  | .cylinderSphere p b => c.cylinderSphere.find (p, b)
  | .kinematicSphere k b => c.kinematicSphere.find (k, b)
  | .other => none

theorem RB3DCache.get_eq (c : RB3DCache) (con : RB3DContact) (h : con ≠ .other) (n : Nat) :
    c.get con n = .ok (orZero n (c.look con)) := by
  cases con <;> first | rfl | exact absurd rfl h

theorem RB3DCache.step_spec (n : Nat) (s : RB3DCache) (op : CacheOp RB3DContact)
    (hi : s.Wf ∧ s.sphereSphere.length ≤ n ∧ s.planeSphere.length ≤ n ∧ s.cylinderSphere.length ≤ n ∧ s.kinematicSphere.length ≤ n)
    (hb : n + 1 < 4294967296)
    (hg : ∀ con r, op = .store con r → con ≠ .other ∧ r.length < 9223372036854775808) :
    ∃ s', s.step op = .ok s' ∧
      (s'.Wf ∧ s'.sphereSphere.length ≤ n + 1 ∧ s'.planeSphere.length ≤ n + 1 ∧ s'.cylinderSphere.length ≤ n + 1 ∧
        s'.kinematicSphere.length ≤ n + 1) ∧
      ∀ con, s'.look con = expected con (s.look con) [op] := by
  obtain ⟨hw, l1, l2, l3, l4⟩ := hi
  cases op with
  | store con r =>
    obtain ⟨h1, h2⟩ := hg con r rfl
    cases con with
    | sphereSphere i j =>
      have hw' := ImpulseMap.wf_insert (k := (i, j)) hw.a l1 hb h2
      refine ⟨_, rfl, ⟨⟨hw'.1, hw.b, hw.c, hw.d⟩, hw'.2, Nat.le_succ_of_le l2, Nat.le_succ_of_le l3, Nat.le_succ_of_le l4⟩, fun con => ?_⟩
      cases con <;> simp only [RB3DCache.look, expected, ImpulseMap.find_insert hw.a.sorted,
        RB3DContact.sphereSphere.injEq, Prod.mk.injEq, reduceCtorEq, if_false] <;> congr
    | planeSphere i j =>
      have hw' := ImpulseMap.wf_insert (k := (i, j)) hw.b l2 hb h2
      refine ⟨_, rfl, ⟨⟨hw.a, hw'.1, hw.c, hw.d⟩, Nat.le_succ_of_le l1, hw'.2, Nat.le_succ_of_le l3, Nat.le_succ_of_le l4⟩, fun con => ?_⟩
      cases con <;> simp only [RB3DCache.look, expected, ImpulseMap.find_insert hw.b.sorted,
        RB3DContact.planeSphere.injEq, Prod.mk.injEq, reduceCtorEq, if_false] <;> congr
    | cylinderSphere i j =>
      have hw' := ImpulseMap.wf_insert (k := (i, j)) hw.c l3 hb h2
      refine ⟨_, rfl, ⟨⟨hw.a, hw.b, hw'.1, hw.d⟩, Nat.le_succ_of_le l1, Nat.le_succ_of_le l2, hw'.2, Nat.le_succ_of_le l4⟩, fun con => ?_⟩
      cases con <;> simp only [RB3DCache.look, expected, ImpulseMap.find_insert hw.c.sorted,
        RB3DContact.cylinderSphere.injEq, Prod.mk.injEq, reduceCtorEq, if_false] <;> congr
    | kinematicSphere i j =>
      have hw' := ImpulseMap.wf_insert (k := (i, j)) hw.d l4 hb h2
      refine ⟨_, rfl, ⟨⟨hw.a, hw.b, hw.c, hw'.1⟩, Nat.le_succ_of_le l1, Nat.le_succ_of_le l2, Nat.le_succ_of_le l3, hw'.2⟩, fun con => ?_⟩
      cases con <;> simp only [RB3DCache.look, expected, ImpulseMap.find_insert hw.d.sorted,
        RB3DContact.kinematicSphere.injEq, Prod.mk.injEq, reduceCtorEq, if_false] <;> congr
    | other => exact absurd rfl h1
  | clear =>
    refine ⟨_, rfl, ⟨⟨ImpulseMap.wf_nil, ImpulseMap.wf_nil, ImpulseMap.wf_nil, ImpulseMap.wf_nil⟩, by simp [RB3DCache.clear],
      by simp [RB3DCache.clear], by simp [RB3DCache.clear], by simp [RB3DCache.clear]⟩, fun con => ?_⟩
    cases con <;> rfl
  | saveLoad =>
    refine ⟨s, ?_, ⟨hw, by omega, by omega, by omega, by omega⟩, fun con => rfl⟩
    have := reads_rb3dCache s hw []
    rw [List.append_nil] at this
    simp only [RB3DCache.step, Dec.run]
    rw [this]; rfl

/-- **3D rigid bodies.** After any history of stores, clears and save/load cycles, asking for a contact returns the impulse stored for that contact since the
last clear, and a zero vector of the requested size if there is none. (Fewer than 2^32 operations; stored contacts are of the kinds the cache supports.) -/
theorem C09_rb3d_cache (ops : List (CacheOp RB3DContact)) (hlen : ops.length < 4294967296)
    (hok : ∀ con r, CacheOp.store con r ∈ ops → con ≠ .other ∧ r.length < 9223372036854775808) :
    ∃ c, runOps RB3DCache.step RB3DCache.clear ops = .ok c ∧
      ∀ con, con ≠ .other → ∀ n, c.get con n = .ok (orZero n (expected con none ops)) := by
  obtain ⟨c, h1, h2⟩ := runOps_refines (look := RB3DCache.look) (bound := 4294967296)
    (Good := fun op => ∀ con r, op = .store con r → con ≠ .other ∧ r.length < 9223372036854775808)
    RB3DCache.step_spec ops 0 RB3DCache.clear
    ⟨⟨ImpulseMap.wf_nil, ImpulseMap.wf_nil, ImpulseMap.wf_nil, ImpulseMap.wf_nil⟩, by simp [RB3DCache.clear], by simp [RB3DCache.clear],
      by simp [RB3DCache.clear], by simp [RB3DCache.clear]⟩
    (by omega) (fun op ho con r e => hok con r (e ▸ ho))
  refine ⟨c, h1, fun con hc n => ?_⟩
  rw [RB3DCache.get_eq c con hc, h2]
  cases con <;> rfl

/-- Four kinds of contacts with the same indices are kept apart. -/
example : ∃ c, runOps RB3DCache.step RB3DCache.clear
      [.store (.sphereSphere 0 1) [⟨5⟩], .store (.planeSphere 0 1) [⟨6⟩], .store (.cylinderSphere 0 1) [⟨7⟩], .saveLoad,
        .store (.kinematicSphere 0 1) [⟨8⟩]] = .ok c ∧
    c.get (.sphereSphere 0 1) 1 = .ok [⟨5⟩] ∧ c.get (.planeSphere 0 1) 1 = .ok [⟨6⟩] ∧ c.get (.cylinderSphere 0 1) 1 = .ok [⟨7⟩] ∧
    c.get (.kinematicSphere 0 1) 1 = .ok [⟨8⟩] ∧ c.get (.sphereSphere 1 0) 2 = .ok [⟨0⟩, ⟨0⟩] := by
  obtain ⟨c, h, hg⟩ := C09_rb3d_cache
    [.store (.sphereSphere 0 1) [⟨5⟩], .store (.planeSphere 0 1) [⟨6⟩], .store (.cylinderSphere 0 1) [⟨7⟩], .saveLoad,
      .store (.kinematicSphere 0 1) [⟨8⟩]]
    (by decide) (by
      intro con r h
      simp only [List.mem_cons, CacheOp.store.injEq, reduceCtorEq, List.not_mem_nil, or_false, false_or] at h
      rcases h with ⟨rfl, rfl⟩ | ⟨rfl, rfl⟩ | ⟨rfl, rfl⟩ | ⟨rfl, rfl⟩ <;> exact ⟨by decide, by decide⟩)
  exact ⟨c, h, by rw [hg _ (by decide)]; rfl, by rw [hg _ (by decide)]; rfl, by rw [hg _ (by decide)]; rfl, by rw [hg _ (by decide)]; rfl,
    by rw [hg _ (by decide)]; rfl⟩

end Scisim
