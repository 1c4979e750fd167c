import Verif.Lemmas.Scripting
import Verif.Props.CLI
import Verif.Props.Edits
/-!
# C65, C66: scripts

What a script can do to a running simulation, and when it is called.
-/

namespace Scisim.Scripting

variable {W A S O B M D : Type}

/-! ## C65: calls do what they say -/

/-- **C65.** A script for `balls2d` that keeps to the rules runs without undefined behaviour, gets exactly the replies its author expects and leaves exactly the
balls and planes the author expects. -/
theorem C65_balls2d_partial [One S] [Div S] [Zero S] [LE S] [DecidableLE S] (s : Script (Call (BallCall S) S) (Reply S) B) (m : Machine (BallWorld S) S)
    (a a' : Author (BallScene S) S) (b : Option B) (h : Agrees BallWorld.Shows m a) (hs : s.intended ballRules a = some (b, a')) :
    ∃ m', s.run (call balls2d) m = .ok (b, m') ∧ Agrees BallWorld.Shows m' a' := refines_balls2d.run s m a b a' h hs

/-- **C65.** The same for `rigidbody2d`; `junk` is what uninitialised memory holds and plays no role. -/
theorem C65_rigidbody2d_partial {G : Type} [HasNaN S] [Neg S] [One S] [Div S] [Zero S] [LE S] [DecidableLE S] [DecidableEq S] (normalized : V2 S → V2 S)
    (junk : Nat → Nat) (circle : S → G) (massInertia : G → S → S × S) (s : Script (Call (BodyCall S) S) (Reply S) B) (m : Machine (BodyWorld S G) S)
    (a a' : Author (BodyScene S G) S) (b : Option B) (h : Agrees BodyWorld.Shows m a)
    (hs : s.intended (bodyRules normalized circle massInertia) a = some (b, a')) :
    ∃ m', s.run (call (rigidbody2d normalized junk circle massInertia)) m = .ok (b, m') ∧ Agrees BodyWorld.Shows m' a' :=
  (refines_rigidbody2d normalized junk circle massInertia).run s m a b a' h hs

/-- **C65.** The same for `rigidbody3d`. -/
theorem C65_rigidbody3d_partial {Q : Type} (unit : Triple S → Bool) (normalized : Triple S → Triple S) (s : Script (Call (SpaceCall S) S) (Reply S) B)
    (m : Machine (SpaceWorld S Q) S) (a a' : Author (SpaceScene S Q) S) (b : Option B) (h : Agrees SpaceWorld.Shows m a)
    (hs : s.intended (spaceRules unit normalized) a = some (b, a')) :
    ∃ m', s.run (call (rigidbody3d unit normalized)) m = .ok (b, m') ∧ Agrees SpaceWorld.Shows m' a' :=
  (refines_rigidbody3d unit normalized).run s m a b a' h hs

/-! ### Scripts that do not keep to the rules -/

/-- What holds between calls of any script holds after it -/
theorem run_invariant [Vectors W S] {I : Interface W S O} (P : Machine W S → Machine W S → Prop) (hrefl : ∀ m, P m m)
    (htrans : ∀ m1 m2 m3, P m1 m2 → P m2 m3 → P m1 m3) (hcall : ∀ c m r m', call I c m = .ok (r, m') → P m m')
    (s : Script (Call O S) (Reply S) B) (m m' : Machine W S) (b : Option B) (h : s.run (call I) m = .ok (b, m')) : P m m' := by
  induction s generalizing m with
  | done x =>
    simp only [Script.run, Outcome.ok.injEq, Prod.mk.injEq] at h
    rw [h.2]; exact hrefl _
  | raise =>
    simp only [Script.run, Outcome.ok.injEq, Prod.mk.injEq] at h
    rw [h.2]; exact hrefl _
  | call c k ih =>
    simp only [Script.run] at h
    obtain ⟨⟨r, m1⟩, h1, h2⟩ := Outcome.bind_ok_iff.mp h
    exact htrans _ _ _ (hcall c m r m1 h1) (ih r m1 h2)

/-- What every call leaves alone, except the world, the iteration count and the validity of arrays -/
structure Kept (m m' : Machine W S) : Prop where
  hasState : m'.hasState = m.hasState
  hasIterate : m'.hasIterate = m.hasIterate
  timestep : m'.timestep = m.timestep
  nextIteration : m'.nextIteration = m.nextIteration
  active : m'.active = m.active
  mu : m'.mu.map List.length = m.mu.map List.length
  cor : m'.cor.map List.length = m.cor.map List.length

theorem Kept.refl (m : Machine W S) : Kept m m := ⟨rfl, rfl, rfl, rfl, rfl, rfl, rfl⟩

theorem Kept.trans {m1 m2 m3 : Machine W S} (h : Kept m1 m2) (k : Kept m2 m3) : Kept m1 m3 :=
  ⟨k.hasState.trans h.hasState, k.hasIterate.trans h.hasIterate, k.timestep.trans h.timestep, k.nextIteration.trans h.nextIteration,
    k.active.trans h.active, k.mu.trans h.mu, k.cor.trans h.cor⟩

theorem state_ok {m : Machine W S} {w : W} (h : m.state = .ok w) : w = m.world := by
  unfold Machine.state at h
  split at h
  · exact (Outcome.ok.inj h).symm
  · cases h

theorem modify_ok {α : Type} {l l' : List α} {i : Int} {f : α → α} (h : modifyElement l i f = .ok l') : l'.length = l.length := by
  unfold modifyElement at h
  obtain ⟨a, -, h2⟩ := Outcome.bind_ok_iff.mp h
  rw [← Outcome.ok.inj h2, List.length_set]

/-- The calls shared by all programs, for any predicate on the world that writing a coordinate preserves -/
theorem call_kept [Vectors W S] {I : Interface W S O} (Q : W → Prop)
    (hq : ∀ w k x, Q w → k < (Vectors.q w).size → Q (Vectors.setQ w ((Vectors.q w).set k x)))
    (hv : ∀ w k x, Q w → k < (Vectors.v w).size → Q (Vectors.setV w ((Vectors.v w).set k x)))
    (hown : ∀ o m r m', I.own o m = .ok (r, m') → Kept m m' ∧ (Q m.world → Q m'.world))
    (c : Call O S) (m : Machine W S) (r : Reply S) (m' : Machine W S) (h : call I c m = .ok (r, m')) :
    Kept m m' ∧ (Q m.world → Q m'.world) := by
  have triv : ∀ {x : Outcome (Reply S × Machine W S)}, x = .ok (r, m') → (∀ y, x = .ok y → y.2 = m) → Kept m m' ∧ (Q m.world → Q m'.world) := by
    intro x hx hy
    have : m' = m := hy _ hx
    rw [this]
    exact ⟨Kept.refl m, id⟩
  cases c with
  | own o => exact hown o m r m' h
  | wrongArguments => simp [call] at h
  | timestep => exact triv h fun y hy => by simp only [call, Outcome.ok.injEq] at hy; rw [← hy]
  | nextIteration => exact triv h fun y hy => by simp only [call, Outcome.ok.injEq] at hy; rw [← hy]
  | configuration =>
    refine triv h fun y hy => ?_
    simp only [call] at hy
    split at hy
    · obtain ⟨_, -, h2⟩ := Outcome.bind_ok_iff.mp hy; rw [← Outcome.ok.inj h2]
    · rw [← Outcome.ok.inj hy]
  | velocity =>
    refine triv h fun y hy => ?_
    simp only [call] at hy
    split at hy
    · obtain ⟨_, -, h2⟩ := Outcome.bind_ok_iff.mp hy; rw [← Outcome.ok.inj h2]
    · rw [← Outcome.ok.inj hy]
  | mu =>
    refine triv h fun y hy => ?_
    simp only [call] at hy
    split at hy
    · obtain ⟨_, -, h2⟩ := Outcome.bind_ok_iff.mp hy; rw [← Outcome.ok.inj h2]
    · rw [← Outcome.ok.inj hy]
  | cor =>
    refine triv h fun y hy => ?_
    simp only [call] at hy
    split at hy
    · obtain ⟨_, -, h2⟩ := Outcome.bind_ok_iff.mp hy; rw [← Outcome.ok.inj h2]
    · rw [← Outcome.ok.inj hy]
  | numCollisions =>
    refine triv h fun y hy => ?_
    simp only [call] at hy
    split at hy
    · obtain ⟨_, -, h2⟩ := Outcome.bind_ok_iff.mp hy; rw [← Outcome.ok.inj h2]
    · rw [← Outcome.ok.inj hy]
  | collisionType i =>
    refine triv h fun y hy => ?_
    simp only [call] at hy
    split at hy
    · obtain ⟨_, -, h2⟩ := Outcome.bind_ok_iff.mp hy
      obtain ⟨_, -, h3⟩ := Outcome.bind_ok_iff.mp h2
      rw [← Outcome.ok.inj h3]
    · rw [← Outcome.ok.inj hy]
  | collisionIndices i =>
    refine triv h fun y hy => ?_
    simp only [call] at hy
    split at hy
    · obtain ⟨_, -, h2⟩ := Outcome.bind_ok_iff.mp hy
      obtain ⟨_, -, h3⟩ := Outcome.bind_ok_iff.mp h2
      rw [← Outcome.ok.inj h3]
    · rw [← Outcome.ok.inj hy]
  | read w i =>
    refine triv h fun y hy => ?_
    simp only [call] at hy
    split at hy
    · obtain ⟨_, -, h2⟩ := Outcome.bind_ok_iff.mp hy; rw [← Outcome.ok.inj h2]
    · rw [← Outcome.ok.inj hy]
  | write w i x =>
    simp only [call] at h
    split at h
    · unfold writeView at h
      split at h
      · split at h
        · cases h
        · split at h
          · simp only [Outcome.ok.injEq, Prod.mk.injEq] at h; rw [← h.2]; exact ⟨Kept.refl m, id⟩
          · rename_i hk
            simp only [Outcome.ok.injEq, Prod.mk.injEq] at h; rw [← h.2]
            exact ⟨⟨rfl, rfl, rfl, rfl, rfl, rfl, rfl⟩, fun hQ => hq _ _ _ hQ (numpyIndex_lt hk)⟩
      · split at h
        · cases h
        · split at h
          · simp only [Outcome.ok.injEq, Prod.mk.injEq] at h; rw [← h.2]; exact ⟨Kept.refl m, id⟩
          · rename_i hk
            simp only [Outcome.ok.injEq, Prod.mk.injEq] at h; rw [← h.2]
            exact ⟨⟨rfl, rfl, rfl, rfl, rfl, rfl, rfl⟩, fun hQ => hv _ _ _ hQ (numpyIndex_lt hk)⟩
      · split at h
        · cases h
        · obtain ⟨l, h1, h2⟩ := Outcome.bind_ok_iff.mp h
          have hl : m.mu = some l := by
            cases hm : m.mu with
            | none => rw [hm] at h1; cases h1
            | some l' => rw [hm] at h1; rw [Outcome.ok.inj h1]
          split at h2
          · simp only [Outcome.ok.injEq, Prod.mk.injEq] at h2; rw [← h2.2]; exact ⟨Kept.refl m, id⟩
          · simp only [Outcome.ok.injEq, Prod.mk.injEq] at h2; rw [← h2.2]
            exact ⟨⟨rfl, rfl, rfl, rfl, rfl, by simp [hl], rfl⟩, id⟩
      · split at h
        · cases h
        · obtain ⟨l, h1, h2⟩ := Outcome.bind_ok_iff.mp h
          have hl : m.cor = some l := by
            cases hm : m.cor with
            | none => rw [hm] at h1; cases h1
            | some l' => rw [hm] at h1; rw [Outcome.ok.inj h1]
          split at h2
          · simp only [Outcome.ok.injEq, Prod.mk.injEq] at h2; rw [← h2.2]; exact ⟨Kept.refl m, id⟩
          · simp only [Outcome.ok.injEq, Prod.mk.injEq] at h2; rw [← h2.2]
            exact ⟨⟨rfl, rfl, rfl, rfl, rfl, rfl, by simp [hl]⟩, id⟩
    · simp only [Outcome.ok.injEq, Prod.mk.injEq] at h; rw [← h.2]; exact ⟨Kept.refl m, id⟩

theorem ballCall_kept [One S] [Div S] [Zero S] [LE S] [DecidableLE S] (o : BallCall S) (m : Machine (BallWorld S) S) (r : Reply S)
    (m' : Machine (BallWorld S) S) (h : ballCall o m = .ok (r, m')) :
    Kept m m' ∧ (m.world.balls.Consistent → m'.world.balls.Consistent) := by
  cases o with
  | insertBall x y vx vy rad mass fixed =>
    simp only [ballCall] at h
    obtain ⟨b, h1, h2⟩ := Outcome.bind_ok_iff.mp h
    obtain ⟨w, h3, h4⟩ := Outcome.bind_ok_iff.mp h2
    simp only [Outcome.ok.injEq, Prod.mk.injEq] at h4
    rw [← h4.2]
    refine ⟨⟨rfl, rfl, rfl, rfl, rfl, rfl, rfl⟩, fun hc => ?_⟩
    have := C43_insert_ball m.world.balls hc x y vx vy rad mass fixed
    split at this
    · rw [this] at h1; cases h1
    · obtain ⟨s', e1, e2, -⟩ := this
      rw [e1] at h1
      rw [← Outcome.ok.inj h1]
      exact e2
  | numStaticPlanes =>
    simp only [ballCall] at h
    obtain ⟨w, h3, h4⟩ := Outcome.bind_ok_iff.mp h
    simp only [Outcome.ok.injEq, Prod.mk.injEq] at h4
    rw [← h4.2]
    exact ⟨Kept.refl m, id⟩
  | setStaticPlanePosition i x y =>
    simp only [ballCall] at h
    obtain ⟨w, h3, h4⟩ := Outcome.bind_ok_iff.mp h
    obtain ⟨l, h5, h6⟩ := Outcome.bind_ok_iff.mp h4
    simp only [Outcome.ok.injEq, Prod.mk.injEq] at h6
    rw [← h6.2, state_ok h3]
    exact ⟨⟨rfl, rfl, rfl, rfl, rfl, rfl, rfl⟩, id⟩
  | setStaticPlaneVelocity i x y =>
    simp only [ballCall] at h
    obtain ⟨w, h3, h4⟩ := Outcome.bind_ok_iff.mp h
    obtain ⟨l, h5, h6⟩ := Outcome.bind_ok_iff.mp h4
    simp only [Outcome.ok.injEq, Prod.mk.injEq] at h6
    rw [← h6.2, state_ok h3]
    exact ⟨⟨rfl, rfl, rfl, rfl, rfl, rfl, rfl⟩, id⟩
  | deleteStaticPlane i =>
    simp only [ballCall] at h
    obtain ⟨w, h3, h4⟩ := Outcome.bind_ok_iff.mp h
    obtain ⟨l, h5, h6⟩ := Outcome.bind_ok_iff.mp h4
    simp only [Outcome.ok.injEq, Prod.mk.injEq] at h6
    rw [← h6.2, state_ok h3]
    exact ⟨⟨rfl, rfl, rfl, rfl, rfl, rfl, rfl⟩, id⟩

/-- **C65.** Whatever a script for `balls2d` does, if it comes to an end without undefined behaviour the arrays of the state still fit together, and the
number of coefficients is still the number of contacts. -/
theorem C65_balls2d_consistent [One S] [Div S] [Zero S] [LE S] [DecidableLE S] (s : Script (Call (BallCall S) S) (Reply S) B)
    (m m' : Machine (BallWorld S) S) (b : Option B) (hm : m.world.balls.Consistent) (h : s.run (call balls2d) m = .ok (b, m')) :
    m'.world.balls.Consistent ∧ m'.mu.map List.length = m.mu.map List.length ∧ m'.cor.map List.length = m.cor.map List.length ∧
      m'.active = m.active := by
  have := run_invariant (I := balls2d (S := S)) (fun m m' => Kept m m' ∧ (m.world.balls.Consistent → m'.world.balls.Consistent))
    (fun m => ⟨Kept.refl m, id⟩) (fun m1 m2 m3 h k => ⟨h.1.trans k.1, k.2 ∘ h.2⟩)
    (fun c m r m' h => call_kept (I := balls2d (S := S)) (fun w => w.balls.Consistent)
      (fun w k x hc _ => ⟨hc.q, hc.v, hc.r, hc.fixed, hc.M, hc.Minv⟩) (fun w k x hc _ => ⟨hc.q, hc.v, hc.r, hc.fixed, hc.M, hc.Minv⟩)
      ballCall_kept c m r m' h) s m m' b h
  exact ⟨this.2 hm, this.1.mu, this.1.cor, this.1.active⟩

theorem spaceCall_kept {Q : Type} (unit : Triple S → Bool) (normalized : Triple S → Triple S) (nq nv np nc nf : Nat) (o : SpaceCall S)
    (m : Machine (SpaceWorld S Q) S) (r : Reply S) (m' : Machine (SpaceWorld S Q) S) (h : spaceCall unit normalized o m = .ok (r, m')) :
    Kept m m' ∧ ((m.world.q.size = nq ∧ m.world.v.size = nv ∧ m.world.planes.length = np ∧ m.world.cylinders.length = nc ∧ m.world.forces.length = nf) →
      (m'.world.q.size = nq ∧ m'.world.v.size = nv ∧ m'.world.planes.length = np ∧ m'.world.cylinders.length = nc ∧ m'.world.forces.length = nf)) := by
  cases o with
  | setInitialIterate n =>
    simp only [spaceCall] at h
    split at h
    · simp only [Outcome.ok.injEq, Prod.mk.injEq] at h
      rw [← h.2]
      exact ⟨⟨rfl, rfl, rfl, rfl, rfl, rfl, rfl⟩, id⟩
    · cases h
  | setStaticCylinderOrientation i axis theta =>
    simp only [spaceCall] at h
    obtain ⟨w, h3, h4⟩ := Outcome.bind_ok_iff.mp h
    split at h4
    · cases h4
    · split at h4
      · cases h4
      · obtain ⟨l, h5, h6⟩ := Outcome.bind_ok_iff.mp h4
        simp only [Outcome.ok.injEq, Prod.mk.injEq] at h6
        rw [← h6.2, state_ok h3]
        refine ⟨⟨rfl, rfl, rfl, rfl, rfl, rfl, rfl⟩, fun hh => ⟨hh.1, hh.2.1, hh.2.2.1, ?_, hh.2.2.2.2⟩⟩
        simpa using hh.2.2.2.1
  | numStaticPlanes =>
    simp only [spaceCall] at h
    obtain ⟨w, h3, h4⟩ := Outcome.bind_ok_iff.mp h
    simp only [Outcome.ok.injEq, Prod.mk.injEq] at h4
    rw [← h4.2]
    exact ⟨Kept.refl m, id⟩
  | numStaticCylinders =>
    simp only [spaceCall] at h
    obtain ⟨w, h3, h4⟩ := Outcome.bind_ok_iff.mp h
    simp only [Outcome.ok.injEq, Prod.mk.injEq] at h4
    rw [← h4.2]
    exact ⟨Kept.refl m, id⟩
  | numForces =>
    simp only [spaceCall] at h
    obtain ⟨w, h3, h4⟩ := Outcome.bind_ok_iff.mp h
    simp only [Outcome.ok.injEq, Prod.mk.injEq] at h4
    rw [← h4.2]
    exact ⟨Kept.refl m, id⟩
  | forceType i =>
    simp only [spaceCall] at h
    obtain ⟨w, h3, h4⟩ := Outcome.bind_ok_iff.mp h
    obtain ⟨l, h5, h6⟩ := Outcome.bind_ok_iff.mp h4
    simp only [Outcome.ok.injEq, Prod.mk.injEq] at h6
    rw [← h6.2]
    exact ⟨Kept.refl m, id⟩
  | setStaticPlanePosition i x =>
    simp only [spaceCall] at h
    obtain ⟨w, h3, h4⟩ := Outcome.bind_ok_iff.mp h
    obtain ⟨l, h5, h6⟩ := Outcome.bind_ok_iff.mp h4
    simp only [Outcome.ok.injEq, Prod.mk.injEq] at h6
    rw [state_ok h3] at h5
    rw [← h6.2, state_ok h3]
    exact ⟨⟨rfl, rfl, rfl, rfl, rfl, rfl, rfl⟩, fun hh => ⟨hh.1, hh.2.1, (modify_ok h5).trans hh.2.2.1, hh.2.2.2.1, hh.2.2.2.2⟩⟩
  | setStaticPlaneVelocity i x =>
    simp only [spaceCall] at h
    obtain ⟨w, h3, h4⟩ := Outcome.bind_ok_iff.mp h
    obtain ⟨l, h5, h6⟩ := Outcome.bind_ok_iff.mp h4
    simp only [Outcome.ok.injEq, Prod.mk.injEq] at h6
    rw [state_ok h3] at h5
    rw [← h6.2, state_ok h3]
    exact ⟨⟨rfl, rfl, rfl, rfl, rfl, rfl, rfl⟩, fun hh => ⟨hh.1, hh.2.1, (modify_ok h5).trans hh.2.2.1, hh.2.2.2.1, hh.2.2.2.2⟩⟩
  | setStaticCylinderAngularVelocity i x =>
    simp only [spaceCall] at h
    obtain ⟨w, h3, h4⟩ := Outcome.bind_ok_iff.mp h
    obtain ⟨l, h5, h6⟩ := Outcome.bind_ok_iff.mp h4
    simp only [Outcome.ok.injEq, Prod.mk.injEq] at h6
    rw [state_ok h3] at h5
    rw [← h6.2, state_ok h3]
    exact ⟨⟨rfl, rfl, rfl, rfl, rfl, rfl, rfl⟩, fun hh => ⟨hh.1, hh.2.1, hh.2.2.1, (modify_ok h5).trans hh.2.2.2.1, hh.2.2.2.2⟩⟩
  | setGravityForce i x =>
    simp only [spaceCall] at h
    obtain ⟨w, h3, h4⟩ := Outcome.bind_ok_iff.mp h
    obtain ⟨l, h5, h6⟩ := Outcome.bind_ok_iff.mp h4
    simp only [Outcome.ok.injEq, Prod.mk.injEq] at h6
    rw [state_ok h3] at h5
    rw [← h6.2, state_ok h3]
    exact ⟨⟨rfl, rfl, rfl, rfl, rfl, rfl, rfl⟩, fun hh => ⟨hh.1, hh.2.1, hh.2.2.1, hh.2.2.2.1, (modify_ok h5).trans hh.2.2.2.2⟩⟩

/-- **C65.** Whatever a script for `rigidbody3d` does, if it comes to an end without undefined behaviour the state has as many coordinates, planes, cylinders
and forces as before, and the number of coefficients is still the number of contacts. -/
theorem C65_rigidbody3d_consistent {Q : Type} (unit : Triple S → Bool) (normalized : Triple S → Triple S) (s : Script (Call (SpaceCall S) S) (Reply S) B)
    (m m' : Machine (SpaceWorld S Q) S) (b : Option B) (h : s.run (call (rigidbody3d unit normalized)) m = .ok (b, m')) :
    m'.world.q.size = m.world.q.size ∧ m'.world.v.size = m.world.v.size ∧ m'.world.planes.length = m.world.planes.length ∧
      m'.world.cylinders.length = m.world.cylinders.length ∧ m'.world.forces.length = m.world.forces.length ∧
      m'.mu.map List.length = m.mu.map List.length ∧ m'.cor.map List.length = m.cor.map List.length ∧ m'.active = m.active := by
  have := run_invariant (I := rigidbody3d (Q := Q) unit normalized) (fun m1 m2 => Kept m1 m2 ∧
      ((m1.world.q.size = m.world.q.size ∧ m1.world.v.size = m.world.v.size ∧ m1.world.planes.length = m.world.planes.length ∧
        m1.world.cylinders.length = m.world.cylinders.length ∧ m1.world.forces.length = m.world.forces.length) →
      (m2.world.q.size = m.world.q.size ∧ m2.world.v.size = m.world.v.size ∧ m2.world.planes.length = m.world.planes.length ∧
        m2.world.cylinders.length = m.world.cylinders.length ∧ m2.world.forces.length = m.world.forces.length)))
    (fun m => ⟨Kept.refl m, id⟩) (fun m1 m2 m3 h k => ⟨h.1.trans k.1, k.2 ∘ h.2⟩)
    (fun c m1 r m2 h => call_kept (I := rigidbody3d unit normalized)
      (fun w => w.q.size = m.world.q.size ∧ w.v.size = m.world.v.size ∧ w.planes.length = m.world.planes.length ∧
        w.cylinders.length = m.world.cylinders.length ∧ w.forces.length = m.world.forces.length)
      (fun w k x hc _ => hc) (fun w k x hc _ => hc) (spaceCall_kept unit normalized _ _ _ _ _) c m1 r m2 h) s m m' b h
  obtain ⟨h1, h2⟩ := this
  obtain ⟨e1, e2, e3, e4, e5⟩ := h2 ⟨rfl, rfl, rfl, rfl, rfl⟩
  exact ⟨e1, e2, e3, e4, e5, h1.mu, h1.cor, h1.active⟩

/-! ### What goes wrong -/

theorem element_end {α : Type} (l : List α) (i : Int) (hi : i = l.length) (hl : l.length < 4294967296) : element l i = .ub := by
  have : asUnsigned i = l.length := by
    unfold asUnsigned
    rw [hi, Int.emod_eq_of_lt (by omega) (by omega)]
    omega
  unfold element
  rw [this, if_neg (by omega), List.getElem?_eq_none (by omega)]
  rfl

theorem element_beyond {α : Type} (l : List α) (i : Int) (hi : l.length < i) (hl : i < 4294967296) : element l i = .exit := by
  have : asUnsigned i = i.toNat := by
    unfold asUnsigned
    rw [Int.emod_eq_of_lt (by omega) (by omega)]
  unfold element
  rw [this, if_pos (by omega)]

/-- **C65 fails: one past the end.** The message says "must be less than", but the index of the element after the last one is not rejected: every call with an
index is then undefined behaviour — in all three programs, for planes, cylinders, forces and collisions. -/
theorem C65_false_one_past_end [One S] [Div S] [Zero S] [LE S] [DecidableLE S] (m : Machine (BallWorld S) S) (n : Nat) (hn : m.world.planes.length = n)
    (hl : n < 4294967296) (hs : m.hasState = true) (x y : S) :
    call balls2d (.own (.setStaticPlanePosition n x y)) m = .ub ∧ call balls2d (.own (.setStaticPlaneVelocity n x y)) m = .ub ∧
      call balls2d (.own (.deleteStaticPlane n)) m = .ub := by
  have := element_end m.world.planes n (by rw [hn]) (by rw [hn]; exact hl)
  have hm : m.state = .ok m.world := by unfold Machine.state; rw [if_pos hs]
  refine ⟨?_, ?_, ?_⟩ <;> simp only [call, balls2d, ballCall] <;> rw [hm] <;>
    simp only [Outcome.bind, modifyElement, eraseElement, this]

/-- The same for `rigidbody2d` -/
theorem C65_false_one_past_end_rb2d {G : Type} [HasNaN S] [Neg S] [One S] [Div S] [Zero S] [LE S] [DecidableLE S] (normalized : V2 S → V2 S)
    (junk : Nat → Nat) (circle : S → G) (massInertia : G → S → S × S) (m : Machine (BodyWorld S G) S) (n : Nat) (hn : m.world.planes.length = n)
    (hl : n < 4294967296) (hs : m.hasState = true) (x y : S) :
    let api := call (rigidbody2d normalized junk circle massInertia)
    api (.own (.setStaticPlanePosition n x y)) m = .ub ∧ api (.own (.setStaticPlaneVelocity n x y)) m = .ub ∧
      api (.own (.setStaticPlaneNormal n x y)) m = .ub ∧ api (.own (.setStaticPlaneAngularVelocity n x)) m = .ub ∧
      api (.own (.deleteStaticPlane n)) m = .ub := by
  have := element_end m.world.planes n (by rw [hn]) (by rw [hn]; exact hl)
  have hm : m.state = .ok m.world := by unfold Machine.state; rw [if_pos hs]
  refine ⟨?_, ?_, ?_, ?_, ?_⟩ <;> simp only [call, rigidbody2d, bodyCall] <;> rw [hm] <;>
    simp only [Outcome.bind, modifyElement, eraseElement, this]

/-- The same for `rigidbody3d`: planes, cylinders and forces -/
theorem C65_false_one_past_end_rb3d {Q : Type} (unit : Triple S → Bool) (normalized : Triple S → Triple S) (m : Machine (SpaceWorld S Q) S)
    (hs : m.hasState = true) (hp : m.world.planes.length < 4294967296) (hc : m.world.cylinders.length < 4294967296)
    (hf : m.world.forces.length < 4294967296) (x : Triple S) :
    let api := call (rigidbody3d unit normalized)
    api (.own (.setStaticPlanePosition m.world.planes.length x)) m = .ub ∧ api (.own (.setStaticPlaneVelocity m.world.planes.length x)) m = .ub ∧
      api (.own (.setStaticCylinderAngularVelocity m.world.cylinders.length x)) m = .ub ∧
      api (.own (.forceType m.world.forces.length)) m = .ub ∧ api (.own (.setGravityForce m.world.forces.length x)) m = .ub := by
  have h1 := element_end m.world.planes _ rfl hp
  have h2 := element_end m.world.cylinders _ rfl hc
  have h3 := element_end m.world.forces _ rfl hf
  have hm : m.state = .ok m.world := by unfold Machine.state; rw [if_pos hs]
  refine ⟨?_, ?_, ?_, ?_, ?_⟩ <;> simp only [call, rigidbody3d, spaceCall] <;> rw [hm] <;>
    simp only [Outcome.bind, modifyElement, h1, h2, h3]

/-- The same for collisions, in both programs that report them -/
theorem C65_false_one_past_end_collisions [Vectors W S] (I : Interface W S O) (hI : I.arrays = true) (m : Machine W S) (l : List Collision)
    (hm : m.active = some l) (hl : l.length < 4294967296) :
    call I (.collisionType l.length) m = .ub ∧ call I (.collisionIndices l.length) m = .ub := by
  have := element_end l _ rfl hl
  constructor <;> simp only [call] <;> rw [if_pos hI, hm] <;> simp only [deref, Outcome.bind, this]

/-- Larger indices end the program. -/
theorem C65_rejected [One S] [Div S] [Zero S] [LE S] [DecidableLE S] (m : Machine (BallWorld S) S) (i : Int) (hi : m.world.planes.length < i)
    (hl : i < 4294967296) (hs : m.hasState = true) (x y : S) :
    call balls2d (.own (.setStaticPlanePosition i x y)) m = .exit ∧ call balls2d (.own (.setStaticPlaneVelocity i x y)) m = .exit ∧
      call balls2d (.own (.deleteStaticPlane i)) m = .exit := by
  have := element_beyond m.world.planes i hi hl
  have hm : m.state = .ok m.world := by unfold Machine.state; rw [if_pos hs]
  refine ⟨?_, ?_, ?_⟩ <;> simp only [call, balls2d, ballCall] <;> rw [hm] <;>
    simp only [Outcome.bind, modifyElement, eraseElement, this]

/-- **C65 fails: large indices.** Indices are taken modulo 2^32 without a check, so that an index far out of range changes an existing plane. -/
theorem C65_false_wrap [One S] [Div S] [Zero S] [LE S] [DecidableLE S] (m : Machine (BallWorld S) S) (p : BallPlane S) (ps : List (BallPlane S))
    (hp : m.world.planes = p :: ps) (hs : m.hasState = true) (x y : S) :
    ∃ m', call balls2d (.own (.setStaticPlanePosition 4294967296 x y)) m = .ok (.unit, m') ∧ m'.world.planes = { p with x := ⟨x, y⟩ } :: ps := by
  have hm : m.state = .ok m.world := by unfold Machine.state; rw [if_pos hs]
  have e : element m.world.planes 4294967296 = .ok p := by
    unfold element
    rw [hp, show asUnsigned 4294967296 = 0 by decide, if_neg (by omega)]
    rfl
  simp only [call, balls2d, ballCall]
  rw [hm]
  simp only [Outcome.bind, modifyElement, e]
  refine ⟨_, rfl, ?_⟩
  simp only [hp, show asUnsigned 4294967296 = 0 by decide, List.set_cons_zero]

/-- **C65 fails: the scene in a coefficient callback.** While coefficients are asked for the state is not available, and asking for it follows a null pointer. -/
theorem C65_false_null [One S] [Div S] [Zero S] [LE S] [DecidableLE S] (m : Machine (BallWorld S) S) (hs : m.hasState = false) :
    call balls2d .configuration m = .ub ∧ call balls2d .velocity m = .ub ∧ call balls2d (.own .numStaticPlanes) m = .ub := by
  have hm : m.state = .ub := by unfold Machine.state; rw [hs]; rfl
  refine ⟨?_, ?_, ?_⟩ <;> simp only [call, balls2d, ballCall] <;> simp [hm, Outcome.bind]

/-- **C65 fails: old arrays.** An array obtained before a ball is inserted points to freed memory afterwards: any use is undefined. -/
theorem C65_false_dangling [One S] [Div S] [Zero S] [LE S] [DecidableLE S] (m m' : Machine (BallWorld S) S) (w : View) (r : Reply S)
    (x y vx vy rad mass : S) (fixed : Int) (hw : call balls2d .configuration m = .ok (.array w, m))
    (h : call balls2d (.own (.insertBall x y vx vy rad mass fixed)) m = .ok (r, m')) (i : Int) (z : S) :
    call balls2d (.read w i) m' = .ub ∧ call balls2d (.write w i z) m' = .ub := by
  simp only [call, balls2d, if_true] at hw
  obtain ⟨_, -, h2⟩ := Outcome.bind_ok_iff.mp hw
  simp only [Outcome.ok.injEq, Prod.mk.injEq, Reply.array.injEq, and_true] at h2
  simp only [call, balls2d, ballCall] at h
  obtain ⟨b, -, h3⟩ := Outcome.bind_ok_iff.mp h
  obtain ⟨w', -, h4⟩ := Outcome.bind_ok_iff.mp h3
  simp only [Outcome.ok.injEq, Prod.mk.injEq] at h4
  rw [← h2, ← h4.2]
  constructor <;> simp [call, balls2d, readView, writeView, Outcome.bind]

/-! ## C66: when scripts are called -/

section
variable [Vectors W S] [SceneVectors A S] {I : Interface W S O} {R : Rules A S O} {shows_ : W → A → Prop}

theorem invoke_careful (hR : Refines I R shows_) (f : M → Script (Call O S) (Reply S) M) (name : Callback S) (pre post : Machine W S → Machine W S)
    (x : Live W S M) (a a' : Author A S) (mem : M) (h : Agrees shows_ (pre x.machine) a) (hs : (f x.memory).intended R a = some (some mem, a')) :
    ∃ m', invoke I (some f) name pre post x = .ok ⟨post m', mem, x.log ++ [name]⟩ ∧ Agrees shows_ m' a' := by
  obtain ⟨m', h1, h2⟩ := hR.run (f x.memory) _ a (some mem) a' h hs
  refine ⟨m', ?_, h2⟩
  unfold invoke
  simp only [h1, Outcome.bind]

/-- **C66.** The function called at the start of step `n` sees the scene as it is, the number `n` and the time step; the scene it leaves is the one the step
starts from. -/
theorem C66_startOfStep (hR : Refines I R shows_) (mod : Module O S M) (f : M → Script (Call O S) (Reply S) M) (hf : mod.startOfStep = some f) (n : Nat) (dt : S)
    (x : Live W S M) (s : A) (hx : shows_ x.machine.world s) (mem : M) (a' : Author A S)
    (hs : (f x.memory).intended R ⟨s, .step n dt, x.machine.iterate, x.machine.stateClock, x.machine.coefClock⟩ = some (some mem, a')) :
    ∃ x', startOfStep I mod n dt x = .ok x' ∧ shows_ x'.machine.world a'.scene ∧ x'.memory = mem ∧ x'.log = x.log ++ [.startOfStep n dt] := by
  unfold startOfStep withState
  rw [hf]
  obtain ⟨m', h1, h2⟩ := invoke_careful hR f (.startOfStep n dt) (fun m => { m with timestep := some dt, nextIteration := n })
    (fun m => { m with timestep := none, nextIteration := 0 }) { x with machine := { x.machine with hasState := true } }
    ⟨s, .step n dt, x.machine.iterate, x.machine.stateClock, x.machine.coefClock⟩ a' mem ⟨hx, rfl, rfl, rfl, rfl, rfl, rfl⟩ hs
  rw [h1]
  exact ⟨_, rfl, h2.scene, rfl, rfl⟩

/-- **C66.** The function called at the end of step `n` sees the scene the step arrived at, the same number and time step. -/
theorem C66_endOfStep (hR : Refines I R shows_) (mod : Module O S M) (f : M → Script (Call O S) (Reply S) M) (hf : mod.endOfStep = some f) (n : Nat) (dt : S)
    (x : Live W S M) (s : A) (hx : shows_ x.machine.world s) (mem : M) (a' : Author A S)
    (hs : (f x.memory).intended R ⟨s, .step n dt, x.machine.iterate, x.machine.stateClock, x.machine.coefClock⟩ = some (some mem, a')) :
    ∃ x', endOfStep I mod n dt x = .ok x' ∧ shows_ x'.machine.world a'.scene ∧ x'.memory = mem ∧ x'.log = x.log ++ [.endOfStep n dt] := by
  unfold endOfStep withState
  rw [hf]
  obtain ⟨m', h1, h2⟩ := invoke_careful hR f (.endOfStep n dt) (fun m => { m with timestep := some dt, nextIteration := n })
    (fun m => { m with timestep := none, nextIteration := 0 }) { x with machine := { x.machine with hasState := true } }
    ⟨s, .step n dt, x.machine.iterate, x.machine.stateClock, x.machine.coefClock⟩ a' mem ⟨hx, rfl, rfl, rfl, rfl, rfl, rfl⟩ hs
  rw [h1]
  exact ⟨_, rfl, h2.scene, rfl, rfl⟩

/-- **C66.** The function called before the first step sees the loaded scene and may set the number of the step before the first one. -/
theorem C66_startOfSim (hR : Refines I R shows_) (mod : Module O S M) (f : M → Script (Call O S) (Reply S) M) (hf : mod.startOfSim = some f)
    (x : Live W S M) (s : A) (hx : shows_ x.machine.world s) (mem : M) (a' : Author A S)
    (hs : (f x.memory).intended R ⟨s, .simStart, x.machine.iterate, x.machine.stateClock, x.machine.coefClock⟩ = some (some mem, a')) :
    ∃ x', startOfSim I mod x = .ok x' ∧ shows_ x'.machine.world a'.scene ∧ x'.machine.iterate = a'.iterate ∧ x'.memory = mem ∧
      x'.log = x.log ++ [.startOfSim] := by
  unfold startOfSim withState
  rw [hf]
  obtain ⟨m', h1, h2⟩ := invoke_careful hR f .startOfSim (fun m => { m with hasIterate := true }) id
    { x with machine := { x.machine with hasState := true } } ⟨s, .simStart, x.machine.iterate, x.machine.stateClock, x.machine.coefClock⟩ a' mem
    ⟨hx, rfl, rfl, rfl, rfl, rfl⟩ hs
  beta_reduce
  rw [h1]
  exact ⟨_, rfl, h2.scene, h2.iterate, rfl, rfl⟩

/-- **C66.** The function called after the last step sees the final scene. -/
theorem C66_endOfSim (hR : Refines I R shows_) (mod : Module O S M) (f : M → Script (Call O S) (Reply S) M) (hf : mod.endOfSim = some f)
    (x : Live W S M) (s : A) (hx : shows_ x.machine.world s) (mem : M) (a' : Author A S)
    (hs : (f x.memory).intended R ⟨s, .simEnd, x.machine.iterate, x.machine.stateClock, x.machine.coefClock⟩ = some (some mem, a')) :
    ∃ x', endOfSim I mod x = .ok x' ∧ shows_ x'.machine.world a'.scene ∧ x'.memory = mem ∧ x'.log = x.log ++ [.endOfSim] := by
  unfold endOfSim withState
  rw [hf]
  obtain ⟨m', h1, h2⟩ := invoke_careful hR f .endOfSim id id { x with machine := { x.machine with hasState := true } }
    ⟨s, .simEnd, x.machine.iterate, x.machine.stateClock, x.machine.coefClock⟩ a' mem ⟨hx, rfl, rfl, rfl, rfl⟩ hs
  rw [h1]
  exact ⟨_, rfl, h2.scene, rfl, rfl⟩

/-- **C66.** The function asked for friction coefficients sees the contacts and one coefficient for each; the values it leaves are those the solver gets. -/
theorem C66_friction (hR : Refines I R shows_) (mod : Module O S M) (f : M → Script (Call O S) (Reply S) M) (hf : mod.frictionCoefficient = some f)
    (contacts : List Collision) (mu mu' : List S) (x : Live W S M) (s : A) (hx : shows_ x.machine.world s) (mem : M) (a' : Author A S)
    (hs : (f x.memory).intended R ⟨s, .friction contacts mu, x.machine.iterate, x.machine.stateClock, x.machine.coefClock⟩ = some (some mem, a'))
    (ha : a'.phase = .friction contacts mu') :
    ∃ x', frictionCoefficient I mod contacts mu x = .ok (mu', x') ∧ shows_ x'.machine.world a'.scene ∧ x'.memory = mem ∧
      x'.log = x.log ++ [.frictionCoefficient contacts.length] := by
  unfold frictionCoefficient
  rw [hf]
  obtain ⟨m', h1, h2⟩ := hR.run (f x.memory) { x.machine with mu := some mu, active := some contacts }
    ⟨s, .friction contacts mu, x.machine.iterate, x.machine.stateClock, x.machine.coefClock⟩ (some mem) a' ⟨hx, rfl, rfl, rfl, rfl, rfl⟩ hs
  have hp := h2.phase
  rw [ha] at hp
  simp only [h1, Outcome.bind, hp.2, deref]
  exact ⟨_, rfl, h2.scene, rfl, rfl⟩

/-- **C66.** Likewise the coefficients of restitution. -/
theorem C66_restitution (hR : Refines I R shows_) (mod : Module O S M) (f : M → Script (Call O S) (Reply S) M) (hf : mod.restitutionCoefficient = some f)
    (contacts : List Collision) (cor cor' : List S) (x : Live W S M) (s : A) (hx : shows_ x.machine.world s) (mem : M) (a' : Author A S)
    (hs : (f x.memory).intended R ⟨s, .restitution contacts cor, x.machine.iterate, x.machine.stateClock, x.machine.coefClock⟩ = some (some mem, a'))
    (ha : a'.phase = .restitution contacts cor') :
    ∃ x', restitutionCoefficient I mod contacts cor x = .ok (cor', x') ∧ shows_ x'.machine.world a'.scene ∧ x'.memory = mem ∧
      x'.log = x.log ++ [.restitutionCoefficient contacts.length] := by
  unfold restitutionCoefficient
  rw [hf]
  obtain ⟨m', h1, h2⟩ := hR.run (f x.memory) { x.machine with cor := some cor, active := some contacts }
    ⟨s, .restitution contacts cor, x.machine.iterate, x.machine.stateClock, x.machine.coefClock⟩ (some mem) a' ⟨hx, rfl, rfl, rfl, rfl, rfl⟩ hs
  have hp := h2.phase
  rw [ha] at hp
  simp only [h1, Outcome.bind, hp.2, deref]
  exact ⟨_, rfl, h2.scene, rfl, rfl⟩

/-! ### Whole steps -/

theorem invoke_acts (hR : Refines I R shows_) (f : Option (M → Script (Call O S) (Reply S) M)) (name : Callback S) (pre post : Machine W S → Machine W S)
    (hpost : ∀ m, (post m).world = m.world ∧ (post m).iterate = m.iterate ∧ (post m).stateClock = m.stateClock ∧ (post m).coefClock = m.coefClock)
    (x : Live W S M) (mem mem' : M) (a a' : Author A S) (p : Phase S) (hx : Follows shows_ x mem a)
    (hpre : Agrees shows_ (pre { x.machine with hasState := true }) { a with phase := p })
    (hs : Acts R f mem { a with phase := p } mem' a') :
    ∃ x', withState (invoke I f name pre post) x = .ok x' ∧ Follows shows_ x' mem' a' := by
  unfold withState
  cases f with
  | none =>
    obtain ⟨rfl, rfl⟩ := hs
    exact ⟨_, rfl, hx.scene, hx.iterate, hx.stateTag, hx.coefTag, hx.memory⟩
  | some f =>
    have hm := hx.memory
    subst hm
    obtain ⟨m', h1, h2⟩ := invoke_careful hR f name pre post { x with machine := { x.machine with hasState := true } } { a with phase := p } a' mem' hpre hs
    rw [h1]
    obtain ⟨e1, e2, e3, e4⟩ := hpost m'
    refine ⟨_, rfl, ?_, ?_, ?_, ?_, rfl⟩
    · simp only [e1]; exact h2.scene
    · simp only [e2]; exact h2.iterate
    · simp only [e3]; exact h2.stateTag
    · simp only [e4]; exact h2.coefTag

theorem startOfStep_acts (hR : Refines I R shows_) (mod : Module O S M) (n : Nat) (dt : S) (x : Live W S M) (mem mem' : M) (a a' : Author A S)
    (hx : Follows shows_ x mem a) (hs : Acts R mod.startOfStep mem { a with phase := .step n dt } mem' a') :
    ∃ x', startOfStep I mod n dt x = .ok x' ∧ Follows shows_ x' mem' a' := by
  unfold startOfStep
  refine invoke_acts hR _ _ _ _ ?_ x mem mem' a a' (.step n dt) hx ?_ hs
  · exact fun m => ⟨rfl, rfl, rfl, rfl⟩
  · exact ⟨hx.scene, hx.iterate, hx.stateTag, hx.coefTag, rfl, rfl, rfl⟩

theorem endOfStep_acts (hR : Refines I R shows_) (mod : Module O S M) (n : Nat) (dt : S) (x : Live W S M) (mem mem' : M) (a a' : Author A S)
    (hx : Follows shows_ x mem a) (hs : Acts R mod.endOfStep mem { a with phase := .step n dt } mem' a') :
    ∃ x', endOfStep I mod n dt x = .ok x' ∧ Follows shows_ x' mem' a' := by
  unfold endOfStep
  refine invoke_acts hR _ _ _ _ ?_ x mem mem' a a' (.step n dt) hx ?_ hs
  · exact fun m => ⟨rfl, rfl, rfl, rfl⟩
  · exact ⟨hx.scene, hx.iterate, hx.stateTag, hx.coefTag, rfl, rfl, rfl⟩

theorem startOfSim_acts (hR : Refines I R shows_) (mod : Module O S M) (x : Live W S M) (mem mem' : M) (a a' : Author A S)
    (hx : Follows shows_ x mem a) (hs : Acts R mod.startOfSim mem { a with phase := .simStart } mem' a') :
    ∃ x', startOfSim I mod x = .ok x' ∧ Follows shows_ x' mem' a' := by
  unfold startOfSim
  refine invoke_acts hR _ _ _ _ ?_ x mem mem' a a' .simStart hx ?_ hs
  · exact fun m => ⟨rfl, rfl, rfl, rfl⟩
  · exact ⟨hx.scene, hx.iterate, hx.stateTag, hx.coefTag, rfl, rfl⟩

theorem friction_acts (hR : Refines I R shows_) (mod : Module O S M) (contacts : List Collision) (mu mu' : List S) (x : Live W S M) (mem mem' : M)
    (a a' : Author A S) (hx : Follows shows_ x mem a) (hs : Acts R mod.frictionCoefficient mem { a with phase := .friction contacts mu } mem' a')
    (ha : a'.phase = .friction contacts mu') :
    ∃ x', frictionCoefficient I mod contacts mu x = .ok (mu', x') ∧ Follows shows_ x' mem' (a'.answered mod.frictionCoefficient) := by
  unfold frictionCoefficient
  cases hf : mod.frictionCoefficient with
  | none =>
    rw [hf] at hs
    obtain ⟨rfl, rfl⟩ := hs
    injection ha with _ h
    subst h
    exact ⟨_, rfl, hx.scene, hx.iterate, hx.stateTag, hx.coefTag, hx.memory⟩
  | some f =>
    rw [hf] at hs
    have hm := hx.memory
    subst hm
    obtain ⟨m', h1, h2⟩ := hR.run (f x.memory) { x.machine with mu := some mu, active := some contacts }
      { a with phase := .friction contacts mu } (some mem') a'
      ⟨hx.scene, hx.iterate, hx.stateTag, hx.coefTag, rfl, rfl⟩ hs
    have hp := h2.phase
    rw [ha] at hp
    simp only [h1, Outcome.bind, hp.2, deref]
    exact ⟨_, rfl, h2.scene, h2.iterate, h2.stateTag, congrArg (· + 1) h2.coefTag, rfl⟩

theorem restitution_acts (hR : Refines I R shows_) (mod : Module O S M) (contacts : List Collision) (cor cor' : List S) (x : Live W S M) (mem mem' : M)
    (a a' : Author A S) (hx : Follows shows_ x mem a) (hs : Acts R mod.restitutionCoefficient mem { a with phase := .restitution contacts cor } mem' a')
    (ha : a'.phase = .restitution contacts cor') :
    ∃ x', restitutionCoefficient I mod contacts cor x = .ok (cor', x') ∧ Follows shows_ x' mem' (a'.answered mod.restitutionCoefficient) := by
  unfold restitutionCoefficient
  cases hf : mod.restitutionCoefficient with
  | none =>
    rw [hf] at hs
    obtain ⟨rfl, rfl⟩ := hs
    injection ha with _ h
    subst h
    exact ⟨_, rfl, hx.scene, hx.iterate, hx.stateTag, hx.coefTag, hx.memory⟩
  | some f =>
    rw [hf] at hs
    have hm := hx.memory
    subst hm
    obtain ⟨m', h1, h2⟩ := hR.run (f x.memory) { x.machine with cor := some cor, active := some contacts }
      { a with phase := .restitution contacts cor } (some mem') a'
      ⟨hx.scene, hx.iterate, hx.stateTag, hx.coefTag, rfl, rfl⟩ hs
    have hp := h2.phase
    rw [ha] at hp
    simp only [h1, Outcome.bind, hp.2, deref]
    exact ⟨_, rfl, h2.scene, h2.iterate, h2.stateTag, congrArg (· + 1) h2.coefTag, rfl⟩

omit [Vectors W S] [SceneVectors A S] in
theorem Follows.moved {x : Live W S M} {mem : M} {a : Author A S} (hx : Follows shows_ x mem a) {w : W} {s : A} (h : shows_ w s) :
    Follows shows_ (x.moved w) mem (a.moved s) :=
  ⟨h, hx.iterate, congrArg (· + 1) hx.stateTag, hx.coefTag, hx.memory⟩

/-- **C66 (a step without contact response).** The simulation moves on from the scene that the start-of-step function left, and the end-of-step function gets the
scene it arrived at. -/
theorem C66_freeStep (hR : Refines I R shows_) (mod : Module O S M) {D : Type} (P : Physics W S D) (n : Nat) (dt : S) (x : Live W S M) (mem mem1 : M)
    (a a1 : Author A S) (hx : Follows shows_ x mem a) (h1 : Acts R mod.startOfStep mem { a with phase := .step n dt } mem1 a1) :
    ∃ w1, shows_ w1 a1.scene ∧ ∀ w2 s2, P.free n w1 = .ok w2 → shows_ w2 s2 → ∀ mem3 a3, Acts R mod.endOfStep mem1 { a1.moved s2 with phase := .step n dt } mem3 a3 →
      ∃ x', flowFree I mod P n dt x = .ok x' ∧ Follows shows_ x' mem3 a3 := by
  obtain ⟨x1, hx1, hf1⟩ := startOfStep_acts hR mod n dt x mem mem1 a a1 hx h1
  refine ⟨x1.machine.world, hf1.scene, fun w2 s2 hw2 hs2 mem3 a3 h3 => ?_⟩
  obtain ⟨x3, hx3, hf3⟩ := endOfStep_acts hR mod n dt _ _ _ _ _ (hf1.moved hs2) h3
  refine ⟨x3, ?_, hf3⟩
  simp only [flowFree, hx1, Outcome.bind, hw2, hx3]

/-- **C66 (a step with friction and contacts).** The contacts are those of the scene that the start-of-step function left. The function for friction gets them and
the scene's coefficient for each, the function for restitution likewise; the solver gets the coefficients and the scene as these functions left them; the
end-of-step function gets what the solver made of them. -/
theorem C66_frictionStep (hR : Refines I R shows_) (mod : Module O S M) {D : Type} (P : Physics W S D) (n : Nat) (dt cor mu : S) (x : Live W S M) (mem mem1 : M)
    (a a1 : Author A S) (hx : Follows shows_ x mem a) (h1 : Acts R mod.startOfStep mem { a with phase := .step n dt } mem1 a1) :
    ∃ w1, shows_ w1 a1.scene ∧ ∀ d contacts, P.predict n w1 = .ok (d, contacts) → contacts ≠ [] →
      ∀ mem2 a2 mus, Acts R mod.frictionCoefficient mem1 { a1 with phase := .friction contacts (List.replicate contacts.length mu) } mem2 a2 →
        a2.phase = .friction contacts mus →
      ∀ mem3 a3 cors, Acts R mod.restitutionCoefficient mem2
          { a2.answered mod.frictionCoefficient with phase := .restitution contacts (List.replicate contacts.length cor) } mem3 a3 →
        a3.phase = .restitution contacts cors →
      ∃ w3, shows_ w3 a3.scene ∧ ∀ w4 s4, P.respond n w3 d (some mus) cors = .ok w4 → shows_ w4 s4 →
      ∀ mem5 a5, Acts R mod.endOfStep mem3 { (a3.answered mod.restitutionCoefficient).moved s4 with phase := .step n dt } mem5 a5 →
      ∃ x', flowFriction I mod P n dt cor mu x = .ok x' ∧ Follows shows_ x' mem5 a5 := by
  obtain ⟨x1, hx1, hf1⟩ := startOfStep_acts hR mod n dt x mem mem1 a a1 hx h1
  refine ⟨x1.machine.world, hf1.scene, fun d contacts hd hne mem2 a2 mus h2 hp2 mem3 a3 cors h3 hp3 => ?_⟩
  obtain ⟨x2, hx2, hf2⟩ := friction_acts hR mod contacts _ mus x1 mem1 mem2 a1 a2 hf1 h2 hp2
  obtain ⟨x3, hx3, hf3⟩ := restitution_acts hR mod contacts _ cors x2 mem2 mem3 _ a3 hf2 h3 hp3
  refine ⟨x3.machine.world, hf3.scene, fun w4 s4 hw4 hs4 mem5 a5 h5 => ?_⟩
  obtain ⟨x5, hx5, hf5⟩ := endOfStep_acts hR mod n dt _ _ _ _ _ (hf3.moved hs4) h5
  refine ⟨x5, ?_, hf5⟩
  simp only [flowFriction, hx1, Outcome.bind, hd, if_neg hne, hx2, hx3, hw4, hx5]

/-- **C66 (a step with friction, but without contacts).** No coefficients are asked for. -/
theorem C66_frictionStep_apart (hR : Refines I R shows_) (mod : Module O S M) {D : Type} (P : Physics W S D) (n : Nat) (dt cor mu : S) (x : Live W S M)
    (mem mem1 : M) (a a1 : Author A S) (hx : Follows shows_ x mem a) (h1 : Acts R mod.startOfStep mem { a with phase := .step n dt } mem1 a1) :
    ∃ w1, shows_ w1 a1.scene ∧ ∀ d, P.predict n w1 = .ok (d, []) → ∀ w2 s2, P.settle n w1 d = .ok w2 → shows_ w2 s2 →
      ∀ mem3 a3, Acts R mod.endOfStep mem1 { a1.moved s2 with phase := .step n dt } mem3 a3 →
      ∃ x', flowFriction I mod P n dt cor mu x = .ok x' ∧ Follows shows_ x' mem3 a3 := by
  obtain ⟨x1, hx1, hf1⟩ := startOfStep_acts hR mod n dt x mem mem1 a a1 hx h1
  refine ⟨x1.machine.world, hf1.scene, fun d hd w2 s2 hw2 hs2 mem3 a3 h3 => ?_⟩
  obtain ⟨x3, hx3, hf3⟩ := endOfStep_acts hR mod n dt _ _ _ _ _ (hf1.moved hs2) h3
  refine ⟨x3, ?_, hf3⟩
  simp only [flowFriction, hx1, Outcome.bind, hd, if_true, hw2, hx3]

/-- **C66 (a step with impacts and contacts).** As with friction; only coefficients of restitution are asked for. -/
theorem C66_impactStep (hR : Refines I R shows_) (mod : Module O S M) {D : Type} (P : Physics W S D) (n : Nat) (dt cor : S) (x : Live W S M) (mem mem1 : M)
    (a a1 : Author A S) (hx : Follows shows_ x mem a) (h1 : Acts R mod.startOfStep mem { a with phase := .step n dt } mem1 a1) :
    ∃ w1, shows_ w1 a1.scene ∧ ∀ d contacts, P.predict n w1 = .ok (d, contacts) → contacts ≠ [] →
      ∀ mem3 a3 cors, Acts R mod.restitutionCoefficient mem1 { a1 with phase := .restitution contacts (List.replicate contacts.length cor) } mem3 a3 →
        a3.phase = .restitution contacts cors →
      ∃ w3, shows_ w3 a3.scene ∧ ∀ w4 s4, P.respond n w3 d none cors = .ok w4 → shows_ w4 s4 →
      ∀ mem5 a5, Acts R mod.endOfStep mem3 { (a3.answered mod.restitutionCoefficient).moved s4 with phase := .step n dt } mem5 a5 →
      ∃ x', flowImpact I mod P n dt cor x = .ok x' ∧ Follows shows_ x' mem5 a5 := by
  obtain ⟨x1, hx1, hf1⟩ := startOfStep_acts hR mod n dt x mem mem1 a a1 hx h1
  refine ⟨x1.machine.world, hf1.scene, fun d contacts hd hne mem3 a3 cors h3 hp3 => ?_⟩
  obtain ⟨x3, hx3, hf3⟩ := restitution_acts hR mod contacts _ cors x1 mem1 mem3 _ a3 hf1 h3 hp3
  refine ⟨x3.machine.world, hf3.scene, fun w4 s4 hw4 hs4 mem5 a5 h5 => ?_⟩
  obtain ⟨x5, hx5, hf5⟩ := endOfStep_acts hR mod n dt _ _ _ _ _ (hf3.moved hs4) h5
  refine ⟨x5, ?_, hf5⟩
  simp only [flowImpact, hx1, Outcome.bind, hd, if_neg hne, hx3, hw4, hx5]

/-- **C66 (a step with impacts, but without contacts).** -/
theorem C66_impactStep_apart (hR : Refines I R shows_) (mod : Module O S M) {D : Type} (P : Physics W S D) (n : Nat) (dt cor : S) (x : Live W S M)
    (mem mem1 : M) (a a1 : Author A S) (hx : Follows shows_ x mem a) (h1 : Acts R mod.startOfStep mem { a with phase := .step n dt } mem1 a1) :
    ∃ w1, shows_ w1 a1.scene ∧ ∀ d, P.predict n w1 = .ok (d, []) → ∀ w2 s2, P.settle n w1 d = .ok w2 → shows_ w2 s2 →
      ∀ mem3 a3, Acts R mod.endOfStep mem1 { a1.moved s2 with phase := .step n dt } mem3 a3 →
      ∃ x', flowImpact I mod P n dt cor x = .ok x' ∧ Follows shows_ x' mem3 a3 := by
  obtain ⟨x1, hx1, hf1⟩ := startOfStep_acts hR mod n dt x mem mem1 a a1 hx h1
  refine ⟨x1.machine.world, hf1.scene, fun d hd w2 s2 hw2 hs2 mem3 a3 h3 => ?_⟩
  obtain ⟨x3, hx3, hf3⟩ := endOfStep_acts hR mod n dt _ _ _ _ _ (hf1.moved hs2) h3
  refine ⟨x3, ?_, hf3⟩
  simp only [flowImpact, hx1, Outcome.bind, hd, if_true, hw2, hx3]

/-- **C66 (the beginning).** The function called after a scene is loaded gets the loaded scene and the number of steps already taken (zero). The run continues
with the scene it left and counts steps from the number it left. -/
theorem C66_start (hR : Refines I R shows_) (mod : Module O S M) (g : Snapshot (Live W S M)) (mem mem' : M) (a a' : Author A S)
    (hx : Follows shows_ g.sim mem { a with iterate := g.sim.machine.iterate })
    (hs : Acts R mod.startOfSim mem { a with phase := .simStart, iterate := g.iteration.toNat } mem' a') :
    ∃ x', startScene I mod g = .ok { g with sim := x', iteration := UInt32.ofNat a'.iterate } ∧ Follows shows_ x' mem' a' := by
  obtain ⟨x1, hx1, hf1⟩ := startOfSim_acts hR mod { g.sim with machine := { g.sim.machine with iterate := g.iteration.toNat } } mem mem'
    { a with iterate := g.iteration.toNat } a' ⟨hx.scene, rfl, hx.stateTag, hx.coefTag, hx.memory⟩ hs
  refine ⟨x1, ?_, hf1⟩
  simp only [startScene, hx1, Outcome.bind, hf1.iterate]

end

/-! ### The order of the callbacks -/

section
variable [Vectors W S] {I : Interface W S O}

theorem invoke_log {f : Option (M → Script (Call O S) (Reply S) M)} {name : Callback S} {pre post : Machine W S → Machine W S} {x x' : Live W S M}
    (h : invoke I f name pre post x = .ok x') : x'.log = x.log ++ (if f.isSome then [name] else []) := by
  cases f with
  | none => simp only [invoke, Outcome.ok.injEq] at h; rw [← h]; simp
  | some f =>
    simp only [invoke] at h
    obtain ⟨r, -, h2⟩ := Outcome.bind_ok_iff.mp h
    split at h2
    · cases h2
    · rw [← Outcome.ok.inj h2]; simp

theorem withState_log {f : Live W S M → Outcome (Live W S M)} {l : List (Callback S)} {x x' : Live W S M}
    (hf : ∀ y y', f y = .ok y' → y'.log = y.log ++ l) (h : withState f x = .ok x') : x'.log = x.log ++ l := by
  unfold withState at h
  obtain ⟨y, h1, h2⟩ := Outcome.bind_ok_iff.mp h
  rw [← Outcome.ok.inj h2]
  exact (hf _ _ h1 : y.log = _)

variable {mod : Module O S M}

theorem startOfStep_log {n : Nat} {dt : S} {x x' : Live W S M} (h : startOfStep I mod n dt x = .ok x') :
    x'.log = x.log ++ [Callback.startOfStep n dt].filter mod.defines :=
  (withState_log (fun _ _ => invoke_log) h).trans (by cases hd : mod.startOfStep <;> simp [Module.defines, hd])

theorem endOfStep_log {n : Nat} {dt : S} {x x' : Live W S M} (h : endOfStep I mod n dt x = .ok x') :
    x'.log = x.log ++ [Callback.endOfStep n dt].filter mod.defines :=
  (withState_log (fun _ _ => invoke_log) h).trans (by cases hd : mod.endOfStep <;> simp [Module.defines, hd])

theorem startOfSim_log {x x' : Live W S M} (h : startOfSim I mod x = .ok x') : x'.log = x.log ++ [Callback.startOfSim].filter mod.defines :=
  (withState_log (fun _ _ => invoke_log) h).trans (by cases hd : mod.startOfSim <;> simp [Module.defines, hd])

theorem endOfSim_log {x x' : Live W S M} (h : endOfSim I mod x = .ok x') : x'.log = x.log ++ [Callback.endOfSim].filter mod.defines :=
  (withState_log (fun _ _ => invoke_log) h).trans (by cases hd : mod.endOfSim <;> simp [Module.defines, hd])

theorem friction_log {c : List Collision} {mu : List S} {x : Live W S M} {r : List S × Live W S M} (h : frictionCoefficient I mod c mu x = .ok r) :
    r.2.log = x.log ++ [Callback.frictionCoefficient c.length].filter mod.defines := by
  unfold frictionCoefficient at h
  cases hd : mod.frictionCoefficient with
  | none => rw [hd] at h; simp only [Outcome.ok.injEq] at h; rw [← h]; simp [Module.defines, hd]
  | some f =>
    rw [hd] at h
    simp only at h
    obtain ⟨r1, -, h2⟩ := Outcome.bind_ok_iff.mp h
    split at h2
    · cases h2
    · obtain ⟨l, -, h3⟩ := Outcome.bind_ok_iff.mp h2
      rw [← Outcome.ok.inj h3]
      simp [Module.defines, hd]

theorem restitution_log {c : List Collision} {cor : List S} {x : Live W S M} {r : List S × Live W S M}
    (h : restitutionCoefficient I mod c cor x = .ok r) : r.2.log = x.log ++ [Callback.restitutionCoefficient c.length].filter mod.defines := by
  unfold restitutionCoefficient at h
  cases hd : mod.restitutionCoefficient with
  | none => rw [hd] at h; simp only [Outcome.ok.injEq] at h; rw [← h]; simp [Module.defines, hd]
  | some f =>
    rw [hd] at h
    simp only at h
    obtain ⟨r1, -, h2⟩ := Outcome.bind_ok_iff.mp h
    split at h2
    · cases h2
    · obtain ⟨l, -, h3⟩ := Outcome.bind_ok_iff.mp h2
      rw [← Outcome.ok.inj h3]
      simp [Module.defines, hd]

theorem flowFree_log {P : Physics W S D} {n : Nat} {dt : S} {x x' : Live W S M} (h : flowFree I mod P n dt x = .ok x') :
    ∃ block, StepCallbacks n dt .free block ∧ x'.log = x.log ++ block.filter mod.defines := by
  unfold flowFree at h
  obtain ⟨x1, h1, h⟩ := Outcome.bind_ok_iff.mp h
  obtain ⟨w, -, h⟩ := Outcome.bind_ok_iff.mp h
  refine ⟨_, .free, ?_⟩
  rw [endOfStep_log h]
  change x1.log ++ _ = _
  rw [startOfStep_log h1, List.append_assoc, ← List.filter_append]
  rfl

theorem flowImpact_log {P : Physics W S D} {n : Nat} {dt cor : S} {x x' : Live W S M} (h : flowImpact I mod P n dt cor x = .ok x') :
    ∃ block, StepCallbacks n dt .impact block ∧ x'.log = x.log ++ block.filter mod.defines := by
  unfold flowImpact at h
  obtain ⟨x1, h1, h⟩ := Outcome.bind_ok_iff.mp h
  obtain ⟨d, -, h⟩ := Outcome.bind_ok_iff.mp h
  obtain ⟨x2, h2, h⟩ := Outcome.bind_ok_iff.mp h
  split at h2
  · obtain ⟨w, -, h2⟩ := Outcome.bind_ok_iff.mp h2
    rw [← Outcome.ok.inj h2] at h
    refine ⟨_, .impactApart, ?_⟩
    rw [endOfStep_log h]
    change x1.log ++ _ = _
    rw [startOfStep_log h1, List.append_assoc, ← List.filter_append]
    rfl
  · rename_i hne
    obtain ⟨c, hc, h2⟩ := Outcome.bind_ok_iff.mp h2
    obtain ⟨w, -, h2⟩ := Outcome.bind_ok_iff.mp h2
    rw [← Outcome.ok.inj h2] at h
    refine ⟨_, .impact d.2.length (List.length_pos_iff.mpr hne), ?_⟩
    rw [endOfStep_log h]
    change c.2.log ++ _ = _
    rw [restitution_log hc, startOfStep_log h1, List.append_assoc, List.append_assoc, ← List.filter_append, ← List.filter_append]
    rfl

theorem flowFriction_log {P : Physics W S D} {n : Nat} {dt cor mu : S} {x x' : Live W S M} (h : flowFriction I mod P n dt cor mu x = .ok x') :
    ∃ block, StepCallbacks n dt .friction block ∧ x'.log = x.log ++ block.filter mod.defines := by
  unfold flowFriction at h
  obtain ⟨x1, h1, h⟩ := Outcome.bind_ok_iff.mp h
  obtain ⟨d, -, h⟩ := Outcome.bind_ok_iff.mp h
  obtain ⟨x2, h2, h⟩ := Outcome.bind_ok_iff.mp h
  split at h2
  · obtain ⟨w, -, h2⟩ := Outcome.bind_ok_iff.mp h2
    rw [← Outcome.ok.inj h2] at h
    refine ⟨_, .frictionApart, ?_⟩
    rw [endOfStep_log h]
    change x1.log ++ _ = _
    rw [startOfStep_log h1, List.append_assoc, ← List.filter_append]
    rfl
  · rename_i hne
    obtain ⟨c, hc, h2⟩ := Outcome.bind_ok_iff.mp h2
    obtain ⟨e, he, h2⟩ := Outcome.bind_ok_iff.mp h2
    obtain ⟨w, -, h2⟩ := Outcome.bind_ok_iff.mp h2
    rw [← Outcome.ok.inj h2] at h
    refine ⟨_, .friction d.2.length (List.length_pos_iff.mpr hne), ?_⟩
    rw [endOfStep_log h]
    change e.2.log ++ _ = _
    rw [restitution_log he, friction_log hc, startOfStep_log h1, List.append_assoc, List.append_assoc, List.append_assoc, ← List.filter_append,
      ← List.filter_append, ← List.filter_append]
    rfl

variable {base : Program (Live W S M)} {P : StepInput (Live W S M) → Physics W S D} {time : Int64 → Int64 → S} {num : F64 → S}
  {keep : StepInput (Live W S M) → Live W S M → ImpactFrictionMapCfg}

/-- **C66.** The callbacks of one step of the program. -/
theorem C66_step (i i' : StepInput (Live W S M)) (h : advance (scripted base I mod P time num keep) i = .ok i') :
    ∃ block, StepCallbacks (i.iteration + 1).toNat (time i.dtNum i.dtDen) (stepKind i) block ∧ i'.sim.log = i.sim.log ++ block.filter mod.defines := by
  unfold advance at h
  obtain ⟨r, h1, h2⟩ := Outcome.bind_ok_iff.mp h
  rw [← Outcome.ok.inj h2]
  simp only
  unfold flowStep at h1
  split at h1
  · rename_i hc
    rw [← Outcome.ok.inj h1]
    have : stepKind i = .nothing := by unfold stepKind; rw [if_pos hc.1]
    rw [this]
    exact ⟨[], .nothing, by simp⟩
  · split at h1
    · rename_i hc
      obtain ⟨s, h3, h4⟩ := Outcome.bind_ok_iff.mp h1
      rw [← Outcome.ok.inj h4]
      have : stepKind i = .free := by
        unfold stepKind; rw [if_neg hc.1, if_neg (by simp [hc.2.2.2.1]), if_neg (by simp [hc.2.1])]
      rw [this]
      exact flowFree_log h3
    · split at h1
      · rename_i hc
        obtain ⟨s, h3, h4⟩ := Outcome.bind_ok_iff.mp h1
        rw [← Outcome.ok.inj h4]
        have : stepKind i = .impact := by
          unfold stepKind; rw [if_neg hc.1, if_neg (by simp [hc.2.2.2.1]), if_pos hc.2.1]
        rw [this]
        exact flowImpact_log h3
      · split at h1
        · rename_i hc
          obtain ⟨s, h3, h4⟩ := Outcome.bind_ok_iff.mp h1
          rw [← Outcome.ok.inj h4]
          have : stepKind i = .friction := by
            unfold stepKind; rw [if_neg hc.1, if_pos hc.2.2.2.1]
          rw [this]
          exact flowFriction_log h3
        · cases h1

theorem StepsCallbacks.snoc {dt : S} {k : StepKind} {first count : Nat} {l b : List (Callback S)} (h : StepsCallbacks dt k first count l)
    (hb : StepCallbacks (first + count) dt k b) : StepsCallbacks dt k first (count + 1) (l ++ b) := by
  induction h with
  | none first =>
    have := StepsCallbacks.step first 0 b [] hb (.none _)
    simpa using this
  | step first count block rest hs _ ih =>
    rw [List.append_assoc]
    exact .step first (count + 1) block (rest ++ b) hs (ih (by rw [show first + 1 + count = first + (count + 1) by omega]; exact hb))

theorem trajectory_fields (p : Program (Live W S M)) (i : StepInput (Live W S M)) (N : Nat) (i' : StepInput (Live W S M))
    (h : trajectory p i N = .ok i') : i'.dtNum = i.dtNum ∧ i'.dtDen = i.dtDen ∧ stepKind i' = stepKind i ∧ i'.iteration = i.iteration + UInt32.ofNat N := by
  induction N generalizing i' with
  | zero =>
    simp only [trajectory, Outcome.ok.injEq] at h
    subst h
    exact ⟨rfl, rfl, rfl, by simp⟩
  | succ N ih =>
    simp only [trajectory] at h
    obtain ⟨j, h1, h2⟩ := Outcome.bind_ok_iff.mp h
    obtain ⟨e1, e2, e3, e4⟩ := ih j h1
    unfold advance at h2
    obtain ⟨r, h3, h4⟩ := Outcome.bind_ok_iff.mp h2
    rw [← Outcome.ok.inj h4]
    refine ⟨e1, e2, e3, ?_⟩
    simp only
    rw [e4, UInt32.add_assoc]
    congr 1
    simp [UInt32.ofNat_add]

/-- **C66.** In any number of steps, from any point of a run, each step is announced by exactly one call at its start and one at its end with its number; the
numbers go up by one; coefficients are asked for between the two, friction first, and only if there are contacts. Functions the module does not define are
left out. -/
theorem C66_steps (i i' : StepInput (Live W S M)) (N : Nat) (hN : i.iteration.toNat + N < 4294967296)
    (h : trajectory (scripted base I mod P time num keep) i N = .ok i') :
    ∃ l, StepsCallbacks (time i.dtNum i.dtDen) (stepKind i) (i.iteration.toNat + 1) N l ∧ i'.sim.log = i.sim.log ++ l.filter mod.defines := by
  induction N generalizing i' with
  | zero =>
    simp only [trajectory, Outcome.ok.injEq] at h
    subst h
    exact ⟨[], .none _, by simp⟩
  | succ N ih =>
    simp only [trajectory] at h
    obtain ⟨j, h1, h2⟩ := Outcome.bind_ok_iff.mp h
    obtain ⟨l, hl, hlog⟩ := ih j (by omega) h1
    obtain ⟨e1, e2, e3, e4⟩ := trajectory_fields _ _ _ _ h1
    obtain ⟨b, hb, hblog⟩ := C66_step j i' h2
    have hj : (j.iteration + 1).toNat = i.iteration.toNat + 1 + N := by
      have h5 : j.iteration.toNat = i.iteration.toNat + N := by
        rw [e4, UInt32.toNat_add, UInt32.toNat_ofNat']
        simp only [Nat.reducePow]
        omega
      rw [UInt32.toNat_add, h5, show (1 : UInt32).toNat = 1 from rfl]
      simp only [Nat.reducePow]
      omega
    rw [e1, e2, e3, hj] at hb
    exact ⟨l ++ b, hl.snoc hb, by rw [hblog, hlog, List.filter_append, List.append_assoc]⟩

/-- **C66.** A whole run from loading a scene to its end: one call before the first step, then the calls of the steps numbered from one to the last, then one
call after the last step — also after the additional step that is taken to write the forces of the last frame. Functions the module does not define are left
out. -/
theorem C66_run (fuel : Nat) (hf : fuel + 2 < 4294967296) (g g1 gf : Snapshot (Live W S M)) (hlog : g.sim.log = [])
    (h1 : startScene I mod g = .ok g1) (hfresh : FreshStart g1)
    (h : runScene (scripted base I mod P time num keep) I mod fuel g = some (.ok gf)) :
    ∃ N l, IsEnd (scripted base I mod P time num keep) g1 N ∧ StepsCallbacks (time g.dtNum g.dtDen) (stepKind g.input) 1 (lastStep g1 N) l ∧
      gf.sim.log = ([Callback.startOfSim] ++ l ++ [Callback.endOfSim]).filter mod.defines := by
  unfold runScene at h
  rw [h1] at h
  simp only at h
  split at h
  · cases h
  · rename_i ge hge
    rw [Option.some.injEq] at h
    obtain ⟨x, hx, h⟩ := Outcome.bind_ok_iff.mp h
    rw [← Outcome.ok.inj h]
    simp only
    obtain ⟨N, hN, hit, htraj, -⟩ := C11_complete _ g1 ge hfresh fuel hf hge
    have hg1 : g1.sim.log = [Callback.startOfSim].filter mod.defines ∧ g1.dtNum = g.dtNum ∧ g1.dtDen = g.dtDen ∧ stepKind g1.input = stepKind g.input := by
      unfold startScene at h1
      obtain ⟨y, hy, h1⟩ := Outcome.bind_ok_iff.mp h1
      rw [← Outcome.ok.inj h1]
      refine ⟨?_, rfl, rfl, rfl⟩
      simp only
      rw [startOfSim_log hy]
      simp [hlog]
    have hlt : lastStep g1 N < 4294967296 := by rw [← hit]; exact ge.iteration.toNat_lt
    obtain ⟨l, hl, hll⟩ := C66_steps g1.input ge.input (lastStep g1 N) (by
      change g1.iteration.toNat + _ < _
      rw [hfresh.iteration]
      simpa using hlt) htraj
    refine ⟨N, l, hN, ?_, ?_⟩
    · have hz : g1.input.iteration.toNat = 0 := by change g1.iteration.toNat = 0; rw [hfresh.iteration]; rfl
      rw [hz] at hl
      change StepsCallbacks (time g1.dtNum g1.dtDen) _ _ _ _ at hl
      rw [hg1.2.1, hg1.2.2.1, hg1.2.2.2] at hl
      exact hl
    · rw [endOfSim_log hx]
      change ge.input.sim.log ++ _ = _
      rw [hll]
      change g1.sim.log ++ _ ++ _ = _
      rw [hg1.1, ← List.filter_append, ← List.filter_append]
  · cases h
  · cases h
  · cases h

/-- **C66.** Without a module nothing is called. -/
theorem C66_no_module (i i' : StepInput (Live W S M)) (N : Nat) (hN : i.iteration.toNat + N < 4294967296)
    (h : trajectory (scripted base I Module.none P time num keep) i N = .ok i') : i'.sim.log = i.sim.log := by
  obtain ⟨l, -, hl⟩ := C66_steps i i' N hN h
  rw [hl]
  have : l.filter (Module.none : Module O S M).defines = [] := by
    rw [List.filter_eq_nil_iff]
    intro c _
    cases c <;> simp [Module.defines, Module.none]
  rw [this, List.append_nil]

end

/-! ## Examples -/

/-- One ball of radius 1 and mass 2 at (3, 4) over the ground -/
def exampleBalls : BallWorld ℚ :=
  ⟨⟨⟨2, fun k => if k = 0 then 3 else 4⟩, ⟨2, fun _ => 0⟩, ⟨1, fun _ => 1⟩, ⟨1, fun _ => false⟩, ⟨2, fun _ => 2⟩, ⟨2, fun _ => 1 / 2⟩⟩,
    [⟨⟨0, 0⟩, ⟨0, 1⟩, ⟨0, 0⟩⟩]⟩

/-- The same scene as its author sees it -/
def exampleScene : BallScene ℚ := ⟨[⟨3, 4, 0, 0, 1, (2, 2), (1 / 2, 1 / 2), false⟩], [⟨⟨0, 0⟩, ⟨0, 1⟩, ⟨0, 0⟩⟩]⟩

theorem exampleBalls_shows : exampleBalls.Shows exampleScene := ⟨⟨rfl, rfl, rfl, rfl, rfl, rfl⟩, by decide +kernel, rfl⟩

/-- A script that lifts the first ball with Python's negative index, adds a second one, looks at its position through a fresh array, moves the ground and
returns what it saw -/
def exampleScript : Script (Call (BallCall ℚ) ℚ) (Reply ℚ) (Reply ℚ) :=
  .call .configuration fun
    | .array w => .call (.write w (-1) 10) fun _ => .call (.own (.insertBall 7 8 1 0 (1 / 2) 5 1)) fun _ =>
      .call .configuration fun
      | .array w => .call (.read w 3) fun y => .call (.own (.setStaticPlanePosition 0 0 (-1))) fun _ => .done y
      | _ => .raise
    | _ => .raise

/-- The rules allow it, and this is what it means ... -/
theorem exampleScript_means : (exampleScript.intended ballRules ⟨exampleScene, .step 1 (1 / 100), 0, 0, 0⟩).map
      (fun r => (r.1, r.2.scene.balls.map fun b => (b.x, b.y, b.fixed), r.2.scene.planes.map (·.x.y))) =
    some (some (.number (some 8)), [(3, 10, false), (7, 8, true)], [-1]) := by decide +kernel

/-- ... so that this is what it does. -/
example : ∃ m', exampleScript.run (call balls2d) ⟨exampleBalls, 0, true, false, some (1 / 100), 1, none, none, none, 0, 0⟩ = .ok (some (.number (some 8)), m') ∧
    m'.world.balls.balls.map (fun b => (b.x, b.y, b.fixed)) = [(3, 10, false), (7, 8, true)] ∧ m'.world.planes.map (·.x.y) = [-1] := by
  obtain ⟨⟨b, a'⟩, h1, h2⟩ := Option.map_eq_some_iff.mp exampleScript_means
  simp only [Prod.mk.injEq] at h2
  obtain ⟨rfl, h3, h4⟩ := h2
  obtain ⟨m', h5, h6⟩ := C65_balls2d_partial exampleScript ⟨exampleBalls, 0, true, false, some (1 / 100), 1, none, none, none, 0, 0⟩
    ⟨exampleScene, .step 1 (1 / 100), 0, 0, 0⟩ a' _
    ⟨exampleBalls_shows, rfl, rfl, rfl, rfl, rfl, rfl⟩ h1
  exact ⟨m', h5, by rw [h6.scene.balls]; exact h3, by rw [h6.scene.planes]; exact h4⟩

/-- The machine of the examples meets the hypotheses of the theorems on what goes wrong. -/
example : call balls2d (.own (.deleteStaticPlane 1)) (⟨exampleBalls, 0, true, false, none, 0, none, none, none, 0, 0⟩ : Machine _ ℚ) = .ub :=
  (C65_false_one_past_end _ 1 rfl (by decide) rfl 0 0).2.2

/-- A module that counts its steps in its own memory, pushes the first ball by that number at the start of each step, and makes every contact bounce
twice as much as it came (no check of the coefficient in a release build) -/
def exampleModule : Module (BallCall ℚ) ℚ Nat where
  startOfSim := some fun _ => .done 0
  endOfSim := none
  startOfStep := some fun mem => .call .velocity fun
    | .array w => .call (.write w 0 mem) fun _ => .done (mem + 1)
    | _ => .raise
  endOfStep := some fun mem => .done mem
  frictionCoefficient := none
  restitutionCoefficient := some fun mem => .call .cor fun
    | .array w => .call (.write w 0 2) fun _ => .done mem
    | _ => .raise

/-- Physics that moves the first ball along the first axis and sees a contact with the ground in every second step -/
def examplePhysics : Physics (BallWorld ℚ) ℚ Unit where
  free _ w := .ok { w with balls := { w.balls with q := w.balls.q.set 0 (w.balls.q.get 0 + w.balls.v.get 0) } }
  predict n _ := .ok ((), if n % 2 = 0 then [⟨"circle-half-plane", 0, -1⟩] else [])
  settle _ w _ := .ok { w with balls := { w.balls with q := w.balls.q.set 0 (w.balls.q.get 0 + w.balls.v.get 0) } }
  respond _ w _ _ cor := .ok { w with balls := { w.balls with v := w.balls.v.set 1 (cor.headD 0) } }

/-- **C66 fails on resuming: a script's memory is not part of a snapshot.** Two running programs whose states agree in every respect but the memory of their
scripts — which is all that a snapshot omits — go different ways. -/
theorem C66_false_memory : ∃ (mod : Module (BallCall ℚ) ℚ Nat) (x y : Live (BallWorld ℚ) ℚ Nat), x.machine = y.machine ∧ x.log = y.log ∧
    ∃ x' y', flowFree balls2d mod examplePhysics 1 (1 / 100) x = .ok x' ∧ flowFree balls2d mod examplePhysics 1 (1 / 100) y = .ok y' ∧
      x'.machine.world.balls.q.get 0 ≠ y'.machine.world.balls.q.get 0 := by
  refine ⟨exampleModule, ⟨⟨exampleBalls, 0, false, false, none, 0, none, none, none, 0, 0⟩, 0, []⟩,
    ⟨⟨exampleBalls, 0, false, false, none, 0, none, none, none, 0, 0⟩, 5, []⟩, rfl, rfl, _, _, rfl, rfl, ?_⟩
  decide +kernel

/-- **C65 fails: no check of coefficients.** A script can set any coefficient, here a negative one: the program goes on with it. -/
theorem C65_false_unchecked (mu : ℚ) (x : ℚ) : ∃ (mod : Module (BallCall ℚ) ℚ Nat) (y y' : Live (BallWorld ℚ) ℚ Nat),
    frictionCoefficient balls2d mod [⟨"circle-half-plane", 0, -1⟩] [mu] y = .ok ([x], y') := by
  refine ⟨{ exampleModule with frictionCoefficient := some fun mem => .call .mu fun
      | .array w => .call (.write w 0 x) fun _ => .done mem
      | _ => .raise }, ⟨⟨exampleBalls, 0, false, false, none, 0, none, none, none, 0, 0⟩, 0, []⟩, _, rfl⟩

/-- The program around the example -/
def exampleCLI : Program (Live (BallWorld ℚ) ℚ Nat) :=
  scripted ⟨⟨1337, fun _ => .ok [], fun b => .ok (⟨⟨exampleBalls, 0, false, false, none, 0, none, none, none, 0, 0⟩, 0, []⟩, b), deIntegratorRB2D, true⟩,
      ascii "abc123", ⟨false, false⟩, true, fun _ => .exit, fun _ => .exit, fun _ => .exit, fun _ _ _ it => decide (3 ≤ it)⟩
    balls2d exampleModule (fun _ => examplePhysics) (fun n d => (n.toInt : ℚ) / d.toInt) (fun _ => 0) (fun i _ => i.impactFrictionMap)

/-- Its scene, with an impact operator -/
def exampleSnapshot : Snapshot (Live (BallWorld ℚ) ℚ Nat) where
  sim := ⟨⟨exampleBalls, 0, false, false, none, 0, none, none, none, 0, 0⟩, 0, []⟩
  iteration := 0
  integrator := .verlet
  dtNum := 1
  dtDen := 100
  endTime := ⟨3⟩
  impactOp := .jacobi ⟨0⟩
  cor := ⟨4⟩
  frictionSolver := .null
  mu := ⟨5⟩
  impactMap := .impactMap false
  impactFrictionMap := .null
  scriptPath := []
  scriptModule := ascii "example"
  hdf5 := none
  stepsPerSave := 1
  outputFrame := 0
  dtStringPrecision := 2
  saveNumberWidth := 1
  serializeSnapshots := false
  overwriteSnapshots := false

/-- The example runs to its end, three steps, with these calls. -/
example : (runScene exampleCLI balls2d exampleModule 10 exampleSnapshot).map (fun o => match o with
      | .ok g => some g.sim.log
      | _ => none) =
    some (some [.startOfSim, .startOfStep 1 (1 / 100), .endOfStep 1 (1 / 100), .startOfStep 2 (1 / 100), .restitutionCoefficient 1, .endOfStep 2 (1 / 100),
      .startOfStep 3 (1 / 100), .endOfStep 3 (1 / 100)]) := by decide +kernel

/-- The hypotheses of `C66_run` hold of it. -/
example : ∃ g1, startScene balls2d exampleModule exampleSnapshot = .ok g1 ∧ FreshStart g1 ∧ exampleSnapshot.sim.log = [] :=
  ⟨_, rfl, ⟨rfl, rfl, by decide⟩, rfl⟩

/-- The hypotheses of `C66_impactStep` hold of its second step: the author's view of the two functions, with the coefficient 2 that the script sets. -/
example : Follows BallWorld.Shows (⟨⟨exampleBalls, 0, false, false, none, 0, none, none, none, 0, 0⟩, 5, []⟩ : Live (BallWorld ℚ) ℚ Nat) 5
      (⟨exampleScene, .simStart, 0, 0, 0⟩ : Author (BallScene ℚ) ℚ) ∧
    ∃ mem1 a1 mem3 a3, Acts ballRules exampleModule.startOfStep 5 ⟨exampleScene, .step 2 (1 / 100), 0, 0, 0⟩ mem1 a1 ∧
      Acts ballRules exampleModule.restitutionCoefficient mem1 { a1 with phase := .restitution [⟨"circle-half-plane", 0, -1⟩] [1 / 2] } mem3 a3 ∧
      a3.phase = .restitution [⟨"circle-half-plane", 0, -1⟩] [2] ∧ a1.scene.balls.map (·.vx) = [5] ∧ mem1 = 6 :=
  ⟨⟨exampleBalls_shows, rfl, rfl, rfl, rfl⟩, _, _, _, _, rfl, rfl, rfl, rfl, rfl⟩

/-- A script for `rigidbody2d`: two geometries, two bodies, the first of which is deleted with its geometry; then the bodies are counted. -/
def exampleScript2D : Script (Call (BodyCall ExScalar) ExScalar) (Reply ExScalar) (Reply ExScalar) :=
  .call (.own (.addCircleGeometry (some 1))) fun _ => .call (.own (.addCircleGeometry (some 2))) fun _ =>
  .call (.own (.addBody (some 1) (some 2) (some 3) (some 4) (some 5) (some 6) (some 1) 0 0)) fun _ =>
  .call (.own (.addBody (some 7) (some 2) (some 3) (some 4) (some 5) (some 6) (some 1) 1 1)) fun _ =>
  .call (.own (.deleteBodies [0])) fun _ => .call (.own (.deleteGeometry [0])) fun _ => .call (.own .numBodies) fun n => .done n

instance : Neg ExScalar := ⟨Option.map Neg.neg⟩

/-- It is allowed at the start of a simulation, and means this. -/
example : (exampleScript2D.intended (bodyRules (G := ExScalar) id id exMass) ⟨⟨⟨[], [], []⟩, []⟩, .simStart, 0, 0, 0⟩).map
      (fun r => (r.1, r.2.scene.world.bodies.map (·.x), r.2.scene.world.geometries)) =
    some (some (.count 1), [some 7], [some 2]) := by decide +kernel

/-- A script for `rigidbody3d`: gravity is turned around, the number of the step before the first is set to 41. -/
def exampleScript3D : Script (Call (SpaceCall ℚ) ℚ) (Reply ℚ) (Reply ℚ) :=
  .call (.own .numForces) fun
    | .count n => .call (.own (.setGravityForce (n - 1 : Int) ⟨0, 10, 0⟩)) fun _ => .call (.own (.setInitialIterate 41)) fun _ =>
      .call (.own (.setStaticCylinderOrientation 0 ⟨0, 0, 1⟩ 3)) fun _ => .call (.own (.forceType 0)) .done
    | _ => .raise

/-- It is allowed at the start of a simulation, and means this. -/
example : (exampleScript3D.intended (spaceRules (Q := Unit) (fun t => t == ⟨0, 0, 1⟩) id)
      ⟨⟨[], [], [], [⟨⟨0, 0, 0⟩, ⟨1, 0, 0⟩, 0, ⟨0, 0, 0⟩, ⟨0, 0, 0⟩, 1⟩], [⟨0, -10, 0⟩]⟩, .simStart, 0, 0, 0⟩).map
      (fun r => (r.1, r.2.scene.gravities, r.2.scene.cylinders.map (fun c => (c.n, c.theta)), r.2.iterate)) =
    some (some (.name "near_earth_gravity"), [⟨0, 10, 0⟩], [(⟨0, 0, 1⟩, 3)], 41) := by decide +kernel

end Scisim.Scripting
