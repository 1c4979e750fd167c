import Verif.Lemmas.MapsBall
import Verif.Props.ImpulseCache
import Verif.Props.BallContacts
import Verif.Props.Dynamics
/-!
# C34, C52: contact-aware steps without contacts, and warm starting
-/

namespace Scisim

variable {Q V C K S P D : Type}

/-! ## C34: no contact, free step -/

/-- **C34**, impact map: if the predicted motion activates no contact, the step is the unconstrained one and the cache is cleared. -/
theorem C34_impact [Zero S] (e : ImpactEnv Q V C K S) (warm : Bool) (it : Nat) (s : MapState Q V K Unit)
    (h : e.activeSet s.q (e.umap it s.q s.v).1 s.v = .ok []) :
    impactMapFlow e warm it s = .ok (⟨(e.umap it s.q s.v).1, (e.umap it s.q s.v).2, e.cache.clear, ()⟩, none) := by
  simp [impactMapFlow, h, Outcome.bind]

/-- **C34**, geometric impact-friction map. -/
theorem C34_geometric [Zero S] (e : FrictionEnv Q V C K S P) (mode : ImpulsesToCache) (it : Nat) (s : MapState Q V K P)
    (h : e.activeSet s.q (e.umap it s.q s.v).1 s.v = .ok []) :
    ∃ f, geometricFlow e mode it s = .ok (⟨(e.umap it s.q s.v).1, (e.umap it s.q s.v).2, e.cache.clear, f⟩, none) :=
  ⟨e.fit s.v s.f, by simp [geometricFlow, h, Outcome.bind]⟩

/-- **C34**, stabilised impact-friction map: the free step; the cache is left as it is (see `C34_stabilized_cache`). -/
theorem C34_stabilized [Zero S] (e : FrictionEnv Q V C K S P) (wa wb : Bool) (it : Nat) (s : MapState Q V K P)
    (h : e.activeSet s.q (e.umap it s.q s.v).1 (e.umap it s.q s.v).2 = .ok []) :
    ∃ f, stabilizedFlow e wa wb it s = .ok (⟨(e.umap it s.q s.v).1, (e.umap it s.q s.v).2, s.cache, f⟩, none) :=
  ⟨e.fit s.v s.f, by simp [stabilizedFlow, h, Outcome.bind]⟩

/-- C34: the stabilised map never writes to the cache, so over any run that starts with an empty cache it stays empty. -/
theorem C34_stabilized_cache [Zero S] (e : FrictionEnv Q V C K S P) (wa wb : Bool) (start N : Nat) (s s' : MapState Q V K P)
    (rs : List (Option (SolveRecord Q V C S))) (h : runMap (stabilizedFlow e wa wb) start N s = .ok (s', rs)) : s'.cache = s.cache := by
  induction N generalizing s' rs with
  | zero => simp only [runMap, Outcome.ok.injEq, Prod.mk.injEq] at h; rw [h.1]
  | succ N ih =>
    rw [runMap] at h
    obtain ⟨⟨s1, rs1⟩, h1, h⟩ := Outcome.bind_ok_iff.mp h
    obtain ⟨⟨s2, r2⟩, h2, h⟩ := Outcome.bind_ok_iff.mp h
    cases h
    rw [← ih s1 rs1 h1]
    unfold stabilizedFlow at h2
    obtain ⟨cs, _, h2⟩ := Outcome.bind_ok_iff.mp h2
    split at h2
    · cases h2; rfl
    · obtain ⟨x, _, h2⟩ := Outcome.bind_ok_iff.mp h2
      cases h2; rfl

/-- C34, symplectic Euler impact-friction map: without contacts it takes a symplectic Euler step of its own (part of the property: the unconstrained
integrator that was configured is not used, see `C34_symplectic_false`). -/
theorem C34_symplectic_partial [Add V] [Zero S] [DecidableEq S] (e : FrictionEnv Q V C K S P) (mode : ImpulsesToCache) (it : Nat)
    (s : MapState Q V K P) (dv : V) (hv : e.vdelta s.q s.v = .ok dv) (h : e.activeSet s.q (e.inertial s.q (s.v + dv)) s.v = .ok []) :
    ∃ f, symplecticFlow e mode it s = .ok (⟨e.inertial s.q (s.v + dv), s.v + dv, e.cache.clear, f⟩, none) :=
  ⟨e.fit s.v s.f, by simp [symplecticFlow, hv, h, Outcome.bind]⟩

/-- **C34** for the ball simulation with the symplectic Euler impact-friction map: the step is that of the symplectic Euler integrator. -/
theorem C34_symplectic_ball [DecidableEq S] [Zero S] {n : Nat} (sim : BallSim n) (dt : ℝ) (e : FrictionEnv (VecX n 2) (VecX n 2) C K S P)
    (hv : e.vdelta = ballVdelta sim dt) (hi : e.inertial = linearUpdate dt) (mode : ImpulsesToCache) (it : Nat)
    (s : MapState (VecX n 2) (VecX n 2) K P)
    (h : e.activeSet s.q (ballSymplecticEuler sim.sys it dt s.q s.v).1 s.v = .ok []) :
    ∃ f, symplecticFlow e mode it s =
      .ok (⟨(ballSymplecticEuler sim.sys it dt s.q s.v).1, (ballSymplecticEuler sim.sys it dt s.q s.v).2, e.cache.clear, f⟩, none) := by
  have hz : zeroForcesOnKinematicBodies sim.sys (sim.computeForce s.q) = sim.computeForce s.q := by
    funext i; simp [zeroForcesOnKinematicBodies, BallSim.sys]
  obtain ⟨f, hf⟩ := C34_symplectic_partial e mode it s (dt • (sim.Minv * sim.computeForce s.q)) (by rw [hv, ballVdelta, hz])
    (by rw [hi]; exact h)
  exact ⟨f, by rw [hf, hi]; rfl⟩

/-- **C34 is false for the symplectic Euler impact-friction map with another integrator**: a falling ball, Verlet configured, no contact: the step taken is
not the Verlet step. -/
theorem C34_symplectic_false :
    ∃ (sim : BallSim 1) (e : FrictionEnv (VecX 1 2) (VecX 1 2) Contact BallCache F64 Unit) (s : MapState (VecX 1 2) (VecX 1 2) BallCache Unit),
      e.umap = (fun it q v => ballVerlet sim.sys it 1 q v) ∧ e.vdelta = ballVdelta sim 1 ∧ e.inertial = linearUpdate 1 ∧
      e.activeSet = (fun _ _ _ => .ok []) ∧
      ∃ s', symplecticFlow e .none 1 s = .ok (s', none) ∧ s'.q ≠ (e.umap 1 s.q s.v).1 := by
  let sim : BallSim 1 := ⟨fun _ => 1, fun _ => false, fun _ _ => 1, fun _ _ => 1, [.gravity ![0, 1]]⟩
  let e : FrictionEnv (VecX 1 2) (VecX 1 2) Contact BallCache F64 Unit :=
    { cache := ballCacheSys, ambientDims := 2, impulsesPerNormal := 1, activeSet := fun _ _ _ => .ok [],
      umap := fun it q v => ballVerlet sim.sys it 1 q v, solve := fun _ _ v _ _ i _ => .ok (i, v, ()), fit := fun _ _ => (),
      inertial := linearUpdate 1, vdelta := ballVdelta sim 1, decache3 := fun _ _ _ _ => .exit, encache3 := fun _ _ _ _ => [] }
  let s : MapState (VecX 1 2) (VecX 1 2) BallCache Unit := ⟨0, 0, BallCache.clear, ()⟩
  obtain ⟨f, hf⟩ := C34_symplectic_ball sim 1 e rfl rfl .none 1 s rfl
  refine ⟨sim, e, s, rfl, rfl, rfl, rfl, _, hf, fun heq => ?_⟩
  have h := congrFun (congrFun heq 0) 1
  simp [e, s, sim, ballSymplecticEuler, ballVerlet, BallSim.sys, BallSim.computeForce, BallForce.computeForce, gravityForce] at h

/-- C34: 2D rigid bodies cannot be used with the symplectic Euler impact-friction map at all: every step ends the process. -/
theorem C34_symplectic_rb2d_exits [DecidableEq S] [Zero S] {n : Nat} (sim : RbSim n) (dt : ℝ) (e : FrictionEnv (VecX n 3) (VecX n 3) C K S P)
    (hv : e.vdelta = rb2dVdelta sim dt) (mode : ImpulsesToCache) (it : Nat) (s : MapState (VecX n 3) (VecX n 3) K P) :
    symplecticFlow e mode it s = .exit := by
  simp [symplecticFlow, hv, rb2dVdelta, Outcome.bind]

/-- the free motion -/
def freeRun (umap : Nat → Q → V → Q × V) (start N : Nat) (x : Q × V) : Q × V := runSteps (fun it x => umap it x.1 x.2) start N x

/-- **C34**, whole runs: as long as the predicted motion activates no contact, impact map and geometric impact-friction map reproduce the free
motion. -/
theorem C34_run [Zero S] (e : ImpactEnv Q V C K S) (e' : FrictionEnv Q V C K S P) (warm : Bool) (mode : ImpulsesToCache) (start N : Nat)
    (s : MapState Q V K Unit) (s' : MapState Q V K P)
    (h : ∀ k < N, let x := freeRun e.umap start k (s.q, s.v)
      e.activeSet x.1 (e.umap (start + k + 1) x.1 x.2).1 x.2 = .ok [])
    (h' : ∀ k < N, let x := freeRun e'.umap start k (s'.q, s'.v)
      e'.activeSet x.1 (e'.umap (start + k + 1) x.1 x.2).1 x.2 = .ok []) :
    (∃ t, runMap (impactMapFlow e warm) start N s = .ok (t, List.replicate N none) ∧ (t.q, t.v) = freeRun e.umap start N (s.q, s.v) ∧
      (0 < N → t.cache = e.cache.clear)) ∧
    (∃ t, runMap (geometricFlow e' mode) start N s' = .ok (t, List.replicate N none) ∧ (t.q, t.v) = freeRun e'.umap start N (s'.q, s'.v) ∧
      (0 < N → t.cache = e'.cache.clear)) := by
  constructor
  · induction N with
    | zero => exact ⟨s, rfl, rfl, fun h => absurd h (lt_irrefl _)⟩
    | succ N ih =>
      obtain ⟨t, h1, h2, _⟩ := ih (fun k hk => h k (Nat.lt_succ_of_lt hk)) (fun k hk => h' k (Nat.lt_succ_of_lt hk))
      have hN := h N (Nat.lt_succ_self N)
      rw [← h2] at hN
      have h3 := C34_impact e warm (start + N + 1) t hN
      refine ⟨_, by simp only [runMap, h1, Outcome.bind, h3, List.replicate_succ', Outcome.ok.injEq, Prod.mk.injEq, and_true]; rfl, ?_, fun _ => rfl⟩
      rw [freeRun, runSteps, ← freeRun, ← h2]
  · induction N with
    | zero => exact ⟨s', rfl, rfl, fun h => absurd h (lt_irrefl _)⟩
    | succ N ih =>
      obtain ⟨t, h1, h2, _⟩ := ih (fun k hk => h k (Nat.lt_succ_of_lt hk)) (fun k hk => h' k (Nat.lt_succ_of_lt hk))
      have hN := h' N (Nat.lt_succ_self N)
      rw [← h2] at hN
      obtain ⟨f, h3⟩ := C34_geometric e' mode (start + N + 1) t hN
      refine ⟨_, by simp only [runMap, h1, Outcome.bind, h3, List.replicate_succ', Outcome.ok.injEq, Prod.mk.injEq, and_true]; rfl, ?_, fun _ => rfl⟩
      rw [freeRun, runSteps, ← freeRun, ← h2]

/-- balls that do not meet each other, a plane or a drum have an empty contact list -/
theorem ballActiveSet_isolated {n : Nat} (hn : 0 < n) (junk : ℝ → ℤ) (sim : BallSim n) (planes : List (HalfPlane ℝ)) (drums : List Drum)
    (hr : ∀ i, 0 < sim.r i) (hpl : ∀ p ∈ planes, p.n.x ^ 2 + p.n.y ^ 2 = 1) (hdr : ∀ d ∈ drums, ∀ i, sim.r i ≤ d.r) (q0 q1 v : VecX n 2)
    (hs : Spread ((ballSteps sim q0 q1).map sweptBox) 65536)
    (hbb : (ballSteps sim q0 q1).Pairwise fun a b => ¬SweptCollide a b) (hbp : ∀ b ∈ ballSteps sim q0 q1, ∀ p ∈ planes, ¬MeetsSolid b p)
    (hbd : ∀ b ∈ ballSteps sim q0 q1, ∀ d ∈ drums, ¬MeetsOutside b d) :
    ballActiveSet junk sim planes drums [] q0 q1 v = .ok [] := by
  have hpos : ∀ b ∈ ballSteps sim q0 q1, 0 < b.r := by
    intro b hb
    obtain ⟨i, rfl⟩ := List.mem_ofFn.mp hb
    exact hr i
  have hlen : (ballSteps sim q0 q1).length = n := by simp [ballSteps]
  obtain ⟨cs, h1, _, h3, h4⟩ := C18_exact_partial junk (ballSteps sim q0 q1) (by intro h; rw [h] at hlen; simp at hlen; omega) hpos hs planes drums
  obtain ⟨_, _, h7, h8⟩ := C19_exact junk (ballSteps sim q0 q1) planes drums [] (fun b hb => (hpos b hb).le) hpl cs h1
  unfold ballActiveSet
  rw [h1]
  congr 1
  rw [List.eq_nil_iff_forall_not_mem]
  intro c hc
  cases c with
  | ballBall c =>
    cases ht : c.teleported with
    | false =>
      have : (c.idx0, c.idx1) ∈ ballPairs false cs := by
        unfold ballPairs
        exact List.mem_filterMap.mpr ⟨_, hc, by simp [ht]⟩
      obtain ⟨hij, a, b, ha, hb, hcol⟩ := (h4 _ _).mp this
      obtain ⟨hi, rfl⟩ := List.getElem?_eq_some_iff.mp ha
      obtain ⟨hj, rfl⟩ := List.getElem?_eq_some_iff.mp hb
      exact (List.pairwise_iff_getElem.mp hbb) _ _ hi hj hij hcol
    | true =>
      have : (c.idx0, c.idx1) ∈ ballPairs true cs := by
        unfold ballPairs
        exact List.mem_filterMap.mpr ⟨_, hc, by simp [ht]⟩
      rw [h3] at this
      simp at this
  | plane i m k =>
    have : (i, k) ∈ planePairs cs := List.mem_filterMap.mpr ⟨_, hc, rfl⟩
    obtain ⟨b, p, hb, hp, hm⟩ := (h7 i k).mp this
    exact hbp b (List.mem_of_getElem? hb) p (List.mem_of_getElem? hp) hm
  | drum i m k =>
    have hmem : (i, k) ∈ drumPairs cs := List.mem_filterMap.mpr ⟨_, hc, rfl⟩
    have hmem2 := hmem
    have hform : Contact.drum i m k ∈ drumContacts (ballSteps sim q0 q1) drums := by
      unfold computeActiveSet at h1
      obtain ⟨bl, hbl, h1⟩ := Outcome.bind_ok_iff.mp h1
      cases h1
      rcases List.mem_append.mp hc with hc | hc
      · rcases List.mem_append.mp hc with hc | hc
        · exfalso
          simp only [List.length_nil, if_true, computeBallBallActiveSetSpatialGrid] at hbl
          obtain ⟨ps, _, hbl⟩ := Outcome.bind_ok_iff.mp hbl
          cases hbl
          obtain ⟨p, _, hp⟩ := List.mem_filterMap.mp hc
          obtain ⟨_, _, _, _, _, hx⟩ := (narrowPhase_some hpos p _).mp hp
          cases hx
        · exact hc
      · exfalso
        obtain ⟨_, _, _, hx⟩ := planeContacts_form hc
        cases hx
    have hex : ∃ b d, (ballSteps sim q0 q1)[i]? = some b ∧ drums[k]? = some d := by
      unfold drumContacts at hform
      obtain ⟨⟨d, di⟩, hd, hx⟩ := List.mem_flatMap.mp hform
      obtain ⟨⟨b, bi⟩, hb, hx⟩ := List.mem_filterMap.mp hx
      simp only at hx
      split at hx
      · cases hx
        exact ⟨b, d, List.mem_zipIdx_iff_getElem?.mp hb, List.mem_zipIdx_iff_getElem?.mp hd⟩
      · cases hx
    obtain ⟨b, d, hb, hd⟩ := hex
    have hbm := List.mem_of_getElem? hb
    have hdm := List.mem_of_getElem? hd
    have hle : b.r ≤ d.r := by
      obtain ⟨j, rfl⟩ := List.mem_ofFn.mp hbm
      exact hdr d hdm j
    exact hbd b hbm d hdm ((h8 i k b d hb hd hle).mp hmem)

/-- **C34** for the ball simulation without portals, in terms of geometry: balls whose straight paths to the positions predicted by the integrator do not
collide, and whose predicted discs meet no plane or drum, take exactly the free step, and the cache is empty afterwards. -/
theorem C34_ball_isolated {n : Nat} (hn : 0 < n) (junk : ℝ → ℤ) (sim : BallSim n) (planes : List (HalfPlane ℝ)) (drums : List Drum)
    (hr : ∀ i, 0 < sim.r i) (hpl : ∀ p ∈ planes, p.n.x ^ 2 + p.n.y ^ 2 = 1) (hdr : ∀ d ∈ drums, ∀ i, sim.r i ≤ d.r)
    (e : ImpactEnv (VecX n 2) (VecX n 2) Contact BallCache F64) (he : e.cache = ballCacheSys)
    (ha : e.activeSet = ballActiveSet junk sim planes drums []) (warm : Bool) (it : Nat) (s : MapState (VecX n 2) (VecX n 2) BallCache Unit)
    (hs : Spread ((ballSteps sim s.q (e.umap it s.q s.v).1).map sweptBox) 65536)
    (hbb : (ballSteps sim s.q (e.umap it s.q s.v).1).Pairwise fun a b => ¬SweptCollide a b)
    (hbp : ∀ b ∈ ballSteps sim s.q (e.umap it s.q s.v).1, ∀ p ∈ planes, ¬MeetsSolid b p)
    (hbd : ∀ b ∈ ballSteps sim s.q (e.umap it s.q s.v).1, ∀ d ∈ drums, ¬MeetsOutside b d) :
    ∃ s', impactMapFlow e warm it s = .ok (s', none) ∧ (s'.q, s'.v) = e.umap it s.q s.v ∧ s'.cache.empty = true :=
  ⟨_, C34_impact e warm it s (by rw [ha]; exact ballActiveSet_isolated hn junk sim planes drums hr hpl hdr _ _ _ hs hbb hbp hbd), rfl,
    by rw [he]; rfl⟩

/-- **C34**, the whole step of the ball simulation including portals: with any of the contact-aware maps for which the inner step is free, the result is
that of the simulation without contacts. -/
theorem C34_ball_whole_step {n : Nat} {R R' : Type} (junk : ℝ → ℤ) (dt : ℝ)
    (inner : List (PlanarPortal ℝ) → Nat → MapState (VecX n 2) (VecX n 2) K P → Outcome (MapState (VecX n 2) (VecX n 2) K P × R))
    (free : List (PlanarPortal ℝ) → Nat → MapState (VecX n 2) (VecX n 2) K P → Outcome (MapState (VecX n 2) (VecX n 2) K P × R'))
    (it : Nat) (s : List (PlanarPortal ℝ) × MapState (VecX n 2) (VecX n 2) K P) (a b : MapState (VecX n 2) (VecX n 2) K P) (r : R) (r' : R')
    (hi : inner (updatePeriodicBoundaryConditionsStartOfStep junk it dt s.1) it s.2 = .ok (a, r))
    (hf : free (updatePeriodicBoundaryConditionsStartOfStep junk it dt s.1) it s.2 = .ok (b, r')) (hq : a.q = b.q) (hv : a.v = b.v) :
    ∃ ps x y, ballSimFlow junk dt inner it s = .ok ((ps, x), r) ∧ ballSimFlow junk dt free it s = .ok ((ps, y), r') ∧ x.q = y.q ∧ x.v = y.v ∧
      x.cache = a.cache := by
  simp only [ballSimFlow, hi, hf, Outcome.bind, hq, hv]
  exact ⟨_, _, _, rfl, rfl, rfl, rfl, rfl⟩

/-! ## One step after another -/

theorem warm_impact_step [Zero S] [DecidableEq D] (e e' : ImpactEnv Q V C K S) (he : e'.cache = e.cache) (ident : C → D) (hl : e.cache.Lawful ident)
    (hd : ∀ q q' v cs k vecs k', e.activeSet q q' v = .ok cs → storeAll e.cache k cs vecs = .ok k' → DifferentContacts ident cs)
    {it it' : Nat} {a b b' c : MapState Q V K Unit} {prev : Option (SolveRecord Q V C S)} {r : SolveRecord Q V C S} (hb : b'.cache = b.cache)
    (h1 : impactMapFlow e true it a = .ok (b, prev)) (h2 : impactMapFlow e' true it' b' = .ok (c, some r)) :
    WarmNormal ident prev r := by
  have hk : KeptRecord e.cache ident (fun p : SolveRecord Q V C S => p.final.alpha.map fun a => [a]) b.cache prev := by
    unfold impactMapFlow at h1
    obtain ⟨cs, hcs, h1⟩ := Outcome.bind_ok_iff.mp h1
    split at h1
    · cases h1; exact kept_clear hl
    · obtain ⟨a0, _, h1⟩ := Outcome.bind_ok_iff.mp h1
      obtain ⟨al, _, h1⟩ := Outcome.bind_ok_iff.mp h1
      obtain ⟨k, hk, h1⟩ := Outcome.bind_ok_iff.mp h1
      cases h1
      simp only [if_true] at hk
      exact kept_storeAll hl (hd _ _ _ _ _ _ _ hcs hk) hk
  rw [← hb, ← he] at hk
  unfold impactMapFlow at h2
  obtain ⟨cs, hcs, h2⟩ := Outcome.bind_ok_iff.mp h2
  split at h2
  · cases h2
  · obtain ⟨a0, h0, h2⟩ := Outcome.bind_ok_iff.mp h2
    obtain ⟨al, _, h2⟩ := Outcome.bind_ok_iff.mp h2
    obtain ⟨k, _, h2⟩ := Outcome.bind_ok_iff.mp h2
    cases h2
    simp only [if_true] at h0
    exact warm_of_normal hk h0

theorem warm_geometric_normal_step [Zero S] [DecidableEq D] (e e' : FrictionEnv Q V C K S P) (he : e'.cache = e.cache) (ident : C → D) (hl : e.cache.Lawful ident)
    (hd : ∀ q q' v cs k vecs k', e.activeSet q q' v = .ok cs → storeAll e.cache k cs vecs = .ok k' → DifferentContacts ident cs)
    {it it' : Nat} {a b b' c : MapState Q V K P} {prev : Option (SolveRecord Q V C S)} {r : SolveRecord Q V C S} (hb : b'.cache = b.cache)
    (h1 : geometricFlow e .normal it a = .ok (b, prev)) (h2 : geometricFlow e' .normal it' b' = .ok (c, some r)) :
    WarmNormal ident prev r ∧ ∀ b ∈ r.start.beta, b = 0 := by
  have hk : KeptRecord e.cache ident (fun p : SolveRecord Q V C S => p.final.alpha.map fun a => [a]) b.cache prev := by
    unfold geometricFlow at h1
    obtain ⟨cs, hcs, h1⟩ := Outcome.bind_ok_iff.mp h1
    split at h1
    · cases h1; exact kept_clear hl
    · obtain ⟨⟨i0, k0⟩, h0, h1⟩ := Outcome.bind_ok_iff.mp h1
      obtain ⟨⟨i1, v2, f'⟩, _, h1⟩ := Outcome.bind_ok_iff.mp h1
      obtain ⟨k, hk, h1⟩ := Outcome.bind_ok_iff.mp h1
      cases h1
      simp only [geometricInit] at h0
      obtain ⟨al, _, h0⟩ := Outcome.bind_ok_iff.mp h0
      cases h0
      exact kept_storeAll hl (hd _ _ _ _ _ _ _ hcs hk) hk
  rw [← hb, ← he] at hk
  unfold geometricFlow at h2
  obtain ⟨cs, hcs, h2⟩ := Outcome.bind_ok_iff.mp h2
  split at h2
  · cases h2
  · obtain ⟨⟨i0, k0⟩, h0, h2⟩ := Outcome.bind_ok_iff.mp h2
    obtain ⟨⟨i1, v2, f'⟩, _, h2⟩ := Outcome.bind_ok_iff.mp h2
    obtain ⟨k, _, h2⟩ := Outcome.bind_ok_iff.mp h2
    cases h2
    simp only [geometricInit] at h0
    obtain ⟨al, h4, h3⟩ := Outcome.bind_ok_iff.mp h0
    cases h3
    exact ⟨warm_of_normal hk h4, fun b hb => List.eq_of_mem_replicate hb⟩

theorem warm_geometric_friction_step [Zero S] [DecidableEq D] (e e' : FrictionEnv Q V C K S P) (he : e'.cache = e.cache) (ident : C → D) (hl : e.cache.Lawful ident)
    (hd : ∀ q q' v cs k vecs k', e.activeSet q q' v = .ok cs → storeAll e.cache k cs vecs = .ok k' → DifferentContacts ident cs)
    {it it' : Nat} {a b b' c : MapState Q V K P} {prev : Option (SolveRecord Q V C S)} {r : SolveRecord Q V C S} (hb : b'.cache = b.cache)
    (h1 : geometricFlow e .normalAndFriction it a = .ok (b, prev)) (h2 : geometricFlow e' .normalAndFriction it' b' = .ok (c, some r)) :
    WarmNormal ident prev r ∧ WarmFriction ident prev r := by
  have hk : KeptRecord e.cache ident (fun p : SolveRecord Q V C S => pairVectors p.final) b.cache prev := by
    unfold geometricFlow at h1
    obtain ⟨cs, hcs, h1⟩ := Outcome.bind_ok_iff.mp h1
    split at h1
    · cases h1; exact kept_clear hl
    · obtain ⟨⟨i0, k0⟩, h0, h1⟩ := Outcome.bind_ok_iff.mp h1
      obtain ⟨⟨i1, v2, f'⟩, _, h1⟩ := Outcome.bind_ok_iff.mp h1
      obtain ⟨k, hk, h1⟩ := Outcome.bind_ok_iff.mp h1
      cases h1
      simp only [geometricInit] at h0
      simp only [geometricCache] at hk
      split at h0
      case isFalse => cases h0
      rename_i h2d
      rw [if_pos h2d] at hk
      obtain ⟨al, _, h0⟩ := Outcome.bind_ok_iff.mp h0
      cases h0
      exact kept_storeAll hl (hd _ _ _ _ _ _ _ hcs hk) hk
  rw [← hb, ← he] at hk
  unfold geometricFlow at h2
  obtain ⟨cs, hcs, h2⟩ := Outcome.bind_ok_iff.mp h2
  split at h2
  · cases h2
  · obtain ⟨⟨i0, k0⟩, h0, h2⟩ := Outcome.bind_ok_iff.mp h2
    obtain ⟨⟨i1, v2, f'⟩, _, h2⟩ := Outcome.bind_ok_iff.mp h2
    obtain ⟨k, _, h2⟩ := Outcome.bind_ok_iff.mp h2
    cases h2
    simp only [geometricInit] at h0
    split at h0
    case isFalse => cases h0
    obtain ⟨al, h4, h3⟩ := Outcome.bind_ok_iff.mp h0
    cases h3
    exact warm_of_pairs hk h4

theorem warm_symplectic_normal_step [Add V] [Zero S] [DecidableEq S] [DecidableEq D] (e e' : FrictionEnv Q V C K S P) (he : e'.cache = e.cache) (ident : C → D)
    (hl : e.cache.Lawful ident)
    (hd : ∀ q q' v cs k vecs k', e.activeSet q q' v = .ok cs → storeAll e.cache k cs vecs = .ok k' → DifferentContacts ident cs)
    {it it' : Nat} {a b b' c : MapState Q V K P} {prev : Option (SolveRecord Q V C S)} {r : SolveRecord Q V C S} (hb : b'.cache = b.cache)
    (h1 : symplecticFlow e .normal it a = .ok (b, prev)) (h2 : symplecticFlow e' .normal it' b' = .ok (c, some r)) :
    WarmNormal ident prev r ∧ ∀ b ∈ r.start.beta, b = 0 := by
  have hk : KeptRecord e.cache ident (fun p : SolveRecord Q V C S => p.final.alpha.map fun a => [a]) b.cache prev := by
    unfold symplecticFlow at h1
    obtain ⟨dv, _, h1⟩ := Outcome.bind_ok_iff.mp h1
    obtain ⟨cs, hcs, h1⟩ := Outcome.bind_ok_iff.mp h1
    split at h1
    · cases h1; exact kept_clear hl
    · obtain ⟨⟨i0, k0⟩, h0, h1⟩ := Outcome.bind_ok_iff.mp h1
      obtain ⟨⟨i1, v2, f'⟩, _, h1⟩ := Outcome.bind_ok_iff.mp h1
      obtain ⟨k, hk, h1⟩ := Outcome.bind_ok_iff.mp h1
      cases h1
      simp only [symplecticInit] at h0
      obtain ⟨al, _, h0⟩ := Outcome.bind_ok_iff.mp h0
      cases h0
      exact kept_storeAll hl (hd _ _ _ _ _ _ _ hcs hk) hk
  rw [← hb, ← he] at hk
  unfold symplecticFlow at h2
  obtain ⟨dv, _, h2⟩ := Outcome.bind_ok_iff.mp h2
  obtain ⟨cs, hcs, h2⟩ := Outcome.bind_ok_iff.mp h2
  split at h2
  · cases h2
  · obtain ⟨⟨i0, k0⟩, h0, h2⟩ := Outcome.bind_ok_iff.mp h2
    obtain ⟨⟨i1, v2, f'⟩, _, h2⟩ := Outcome.bind_ok_iff.mp h2
    obtain ⟨k, _, h2⟩ := Outcome.bind_ok_iff.mp h2
    cases h2
    simp only [symplecticInit] at h0
    obtain ⟨al, h4, h3⟩ := Outcome.bind_ok_iff.mp h0
    cases h3
    exact ⟨warm_of_normal hk h4, fun b hb => List.eq_of_mem_replicate hb⟩

theorem warm_symplectic_friction_step [Add V] [Zero S] [DecidableEq S] [DecidableEq D] (e e' : FrictionEnv Q V C K S P) (he : e'.cache = e.cache) (h2d : e.ambientDims = 2) (h2d' : e'.ambientDims = 2)
    (ident : C → D) (hl : e.cache.Lawful ident)
    (hd : ∀ q q' v cs k vecs k', e.activeSet q q' v = .ok cs → storeAll e.cache k cs vecs = .ok k' → DifferentContacts ident cs)
    {it it' : Nat} {a b b' c : MapState Q V K P} {prev : Option (SolveRecord Q V C S)} {r : SolveRecord Q V C S} (hb : b'.cache = b.cache)
    (h1 : symplecticFlow e .normalAndFriction it a = .ok (b, prev)) (h2 : symplecticFlow e' .normalAndFriction it' b' = .ok (c, some r)) :
    WarmNormal ident prev r ∧ WarmFriction ident prev r := by
  have hk : KeptRecord e.cache ident (fun p : SolveRecord Q V C S => pairVectors p.final) b.cache prev := by
    unfold symplecticFlow at h1
    obtain ⟨dv, _, h1⟩ := Outcome.bind_ok_iff.mp h1
    obtain ⟨cs, hcs, h1⟩ := Outcome.bind_ok_iff.mp h1
    split at h1
    · cases h1; exact kept_clear hl
    · obtain ⟨⟨i0, k0⟩, h0, h1⟩ := Outcome.bind_ok_iff.mp h1
      obtain ⟨⟨i1, v2, f'⟩, _, h1⟩ := Outcome.bind_ok_iff.mp h1
      obtain ⟨k, hk, h1⟩ := Outcome.bind_ok_iff.mp h1
      cases h1
      simp only [symplecticInit, if_pos h2d] at h0
      simp only [symplecticCache, if_pos h2d] at hk
      obtain ⟨al, _, h0⟩ := Outcome.bind_ok_iff.mp h0
      cases h0
      exact kept_storeAll hl (hd _ _ _ _ _ _ _ hcs hk) hk
  rw [← hb, ← he] at hk
  unfold symplecticFlow at h2
  obtain ⟨dv, _, h2⟩ := Outcome.bind_ok_iff.mp h2
  obtain ⟨cs, hcs, h2⟩ := Outcome.bind_ok_iff.mp h2
  split at h2
  · cases h2
  · obtain ⟨⟨i0, k0⟩, h0, h2⟩ := Outcome.bind_ok_iff.mp h2
    obtain ⟨⟨i1, v2, f'⟩, _, h2⟩ := Outcome.bind_ok_iff.mp h2
    obtain ⟨k, _, h2⟩ := Outcome.bind_ok_iff.mp h2
    cases h2
    simp only [symplecticInit, if_pos h2d'] at h0
    obtain ⟨al, h4, h3⟩ := Outcome.bind_ok_iff.mp h0
    cases h3
    exact warm_of_pairs hk h4

/-! ## C25: fixed bodies in steps with contacts -/

/-- **C25**, three-dimensional rigid bodies with the symplectic Euler or the stabilised impact-friction map, steps with contacts: whatever forces, contacts and
impulses there are, a step that has contacts does not move a fixed body. -/
theorem C25_fixed_rb3d_contacts [Zero S] [DecidableEq S] {n : Nat} (fixed : Fin n → Bool) (dt : ℝ) (e : FrictionEnv (Conf3 n) (Vel3 n) C K S P)
    (hi : e.inertial = fun q v => exponentialEuler q v fixed dt) (i : Fin n) (hf : fixed i = true) (it : Nat) (s s' : MapState (Conf3 n) (Vel3 n) K P)
    (r : Option (SolveRecord (Conf3 n) (Vel3 n) C S)) :
    (∀ mode, symplecticFlow e mode it s = .ok (s', r) → s'.q i = s.q i) ∧
    (∀ wa wb, stabilizedFlow e wa wb it s = .ok (s', r) → r ≠ none → s'.q i = s.q i) := by
  have key : ∀ q v, (exponentialEuler q v fixed dt) i = q i := fun q v => by simp [exponentialEuler, hf]
  constructor
  · intro mode h
    unfold symplecticFlow at h
    obtain ⟨dv, _, h⟩ := Outcome.bind_ok_iff.mp h
    obtain ⟨cs, _, h⟩ := Outcome.bind_ok_iff.mp h
    split at h
    · cases h; rw [hi]; exact key _ _
    · obtain ⟨⟨_, _⟩, _, h⟩ := Outcome.bind_ok_iff.mp h
      obtain ⟨⟨_, _, _⟩, _, h⟩ := Outcome.bind_ok_iff.mp h
      obtain ⟨_, _, h⟩ := Outcome.bind_ok_iff.mp h
      cases h; rw [hi]; exact key _ _
  · intro wa wb h hr
    unfold stabilizedFlow at h
    obtain ⟨cs, _, h⟩ := Outcome.bind_ok_iff.mp h
    split at h
    · cases h; exact absurd rfl hr
    · obtain ⟨⟨_, _, _⟩, _, h⟩ := Outcome.bind_ok_iff.mp h
      cases h; rw [hi]; exact key _ _

/-! ## C52: warm starting -/

/-- **C52**, impact map with warm starting: in any run, every contact starts from the impulse it had at the end of the previous step, new contacts from
zero. -/
theorem C52_impact [Zero S] [DecidableEq D] (e : ImpactEnv Q V C K S) (ident : C → D) (hl : e.cache.Lawful ident)
    (hd : ∀ q q' v cs k vecs k', e.activeSet q q' v = .ok cs → storeAll e.cache k cs vecs = .ok k' → DifferentContacts ident cs)
    (start N : Nat) (s s' : MapState Q V K Unit) (rs : List (Option (SolveRecord Q V C S)))
    (h : runMap (impactMapFlow e true) start N s = .ok (s', rs)) : Consecutive rs (WarmNormal ident) := by
  exact consecutive_of_step h _ fun _ _ _ _ _ _ _ h1 h2 => warm_impact_step e e rfl ident hl hd rfl h1 h2

/-- **C52**, geometric impact-friction map, caching normal impulses; friction impulses start from zero. -/
theorem C52_geometric_normal [Zero S] [DecidableEq D] (e : FrictionEnv Q V C K S P) (ident : C → D) (hl : e.cache.Lawful ident)
    (hd : ∀ q q' v cs k vecs k', e.activeSet q q' v = .ok cs → storeAll e.cache k cs vecs = .ok k' → DifferentContacts ident cs)
    (start N : Nat) (s s' : MapState Q V K P) (rs : List (Option (SolveRecord Q V C S)))
    (h : runMap (geometricFlow e .normal) start N s = .ok (s', rs)) :
    Consecutive rs (fun prev r => WarmNormal ident prev r ∧ ∀ b ∈ r.start.beta, b = 0) := by
  exact consecutive_of_step h _ fun _ _ _ _ _ _ _ h1 h2 => warm_geometric_normal_step e e rfl ident hl hd rfl h1 h2

/-- **C52**, geometric impact-friction map in two dimensions, caching normal and friction impulses. -/
theorem C52_geometric_friction [Zero S] [DecidableEq D] (e : FrictionEnv Q V C K S P) (ident : C → D) (hl : e.cache.Lawful ident)
    (hd : ∀ q q' v cs k vecs k', e.activeSet q q' v = .ok cs → storeAll e.cache k cs vecs = .ok k' → DifferentContacts ident cs)
    (start N : Nat) (s s' : MapState Q V K P) (rs : List (Option (SolveRecord Q V C S)))
    (h : runMap (geometricFlow e .normalAndFriction) start N s = .ok (s', rs)) :
    Consecutive rs (fun prev r => WarmNormal ident prev r ∧ WarmFriction ident prev r) := by
  exact consecutive_of_step h _ fun _ _ _ _ _ _ _ h1 h2 => warm_geometric_friction_step e e rfl ident hl hd rfl h1 h2

/-- **C52**, symplectic Euler impact-friction map, caching normal impulses. -/
theorem C52_symplectic_normal [Add V] [Zero S] [DecidableEq S] [DecidableEq D] (e : FrictionEnv Q V C K S P) (ident : C → D)
    (hl : e.cache.Lawful ident)
    (hd : ∀ q q' v cs k vecs k', e.activeSet q q' v = .ok cs → storeAll e.cache k cs vecs = .ok k' → DifferentContacts ident cs)
    (start N : Nat) (s s' : MapState Q V K P) (rs : List (Option (SolveRecord Q V C S)))
    (h : runMap (symplecticFlow e .normal) start N s = .ok (s', rs)) :
    Consecutive rs (fun prev r => WarmNormal ident prev r ∧ ∀ b ∈ r.start.beta, b = 0) := by
  exact consecutive_of_step h _ fun _ _ _ _ _ _ _ h1 h2 => warm_symplectic_normal_step e e rfl ident hl hd rfl h1 h2

/-- **C52**, symplectic Euler impact-friction map in two dimensions, caching normal and friction impulses. -/
theorem C52_symplectic_friction [Add V] [Zero S] [DecidableEq S] [DecidableEq D] (e : FrictionEnv Q V C K S P) (h2d : e.ambientDims = 2)
    (ident : C → D) (hl : e.cache.Lawful ident)
    (hd : ∀ q q' v cs k vecs k', e.activeSet q q' v = .ok cs → storeAll e.cache k cs vecs = .ok k' → DifferentContacts ident cs)
    (start N : Nat) (s s' : MapState Q V K P) (rs : List (Option (SolveRecord Q V C S)))
    (h : runMap (symplecticFlow e .normalAndFriction) start N s = .ok (s', rs)) :
    Consecutive rs (fun prev r => WarmNormal ident prev r ∧ WarmFriction ident prev r) := by
  exact consecutive_of_step h _ fun _ _ _ _ _ _ _ h1 h2 => warm_symplectic_friction_step e e rfl h2d h2d ident hl hd rfl h1 h2

/-- reading back a cached force in a basis that may have changed -/
theorem decache_encache (axis : Vec3 → Vec3 → Vec3) {B B' : Mat3} (hB : OrthonormalBasis3 B) (hB' : OrthonormalBasis3 B') (x y : ℝ × ℝ × ℝ)
    (h : decacheForce axis B' (encacheForce B x) = .ok y) :
    (-1 + 1 / 1000000000000 ≤ (fun i => B' i 0) ⬝ᵥ (fun i => B i 0) → y.1 = x.1 ∧ y.2.1 ^ 2 + y.2.2 ^ 2 = x.2.1 ^ 2 + x.2.2 ^ 2) ∧
    (B' = B → y = x) := by
  have cols : ∀ {B : Mat3}, OrthonormalBasis3 B → ∀ i j, dot3 (fun k => B k i) (fun k => B k j) = if i = j then 1 else 0 := by
    intro B hB i j
    have := congrFun (congrFun hB i) j
    rw [Matrix.mul_apply, Fin.sum_univ_three, Matrix.one_apply] at this
    simpa [dot3, Matrix.transpose_apply] using this
  have rows : ∀ {B : Mat3}, OrthonormalBasis3 B → ∀ v : Vec3, dot3 v (fun k => B k 0) ^ 2 + dot3 v (fun k => B k 1) ^ 2 + dot3 v (fun k => B k 2) ^ 2 = dot3 v v := by
    intro B hB v
    have h2 : B * B.transpose = 1 := mul_eq_one_comm.mp hB
    have e : ∀ i j, B i 0 * B j 0 + B i 1 * B j 1 + B i 2 * B j 2 = if i = j then 1 else 0 := by
      intro i j
      have := congrFun (congrFun h2 i) j
      rw [Matrix.mul_apply, Fin.sum_univ_three, Matrix.one_apply] at this
      simpa [Matrix.transpose_apply] using this
    have e00 := e 0 0; have e01 := e 0 1; have e02 := e 0 2; have e11 := e 1 1; have e12 := e 1 2; have e22 := e 2 2
    simp only [if_true, Fin.reduceEq, if_false] at e00 e01 e02 e11 e12 e22
    simp only [dot3]
    linear_combination v 0 ^ 2 * e00 + v 1 ^ 2 * e11 + v 2 ^ 2 * e22 + 2 * v 0 * v 1 * e01 + 2 * v 0 * v 2 * e02 + 2 * v 1 * v 2 * e12
  simp only [encacheForce, decacheForce, Outcome.ok.injEq, dot3_eq] at h
  have hn : (![B 0 0, B 1 0, B 2 0] : Vec3) = fun k => B k 0 := by funext k; fin_cases k <;> rfl
  set F : Vec3 := fun k => x.1 * B k 0 + x.2.1 * B k 1 + x.2.2 * B k 2 with hF
  have hF' : (![x.1 * B 0 0 + x.2.1 * B 0 1 + x.2.2 * B 0 2, x.1 * B 1 0 + x.2.1 * B 1 1 + x.2.2 * B 1 2,
      x.1 * B 2 0 + x.2.1 * B 2 1 + x.2.2 * B 2 2] : Vec3) = F := by funext k; fin_cases k <;> rfl
  have c00 := cols hB 0 0; have c01 := cols hB 0 1; have c02 := cols hB 0 2; have c11 := cols hB 1 1; have c12 := cols hB 1 2; have c22 := cols hB 2 2
  simp only [if_true, Fin.reduceEq, if_false] at c00 c01 c02 c11 c12 c22
  have c00' := cols hB' 0 0
  simp only [if_true] at c00'
  have hF0 : dot3 F (fun k => B k 0) = x.1 := by
    simp only [dot3, hF] at *
    linear_combination x.1 * c00 + x.2.1 * c01 + x.2.2 * c02
  have hF1 : dot3 F (fun k => B k 1) = x.2.1 := by
    simp only [dot3, hF] at *
    linear_combination x.1 * c01 + x.2.1 * c11 + x.2.2 * c12
  have hF2 : dot3 F (fun k => B k 2) = x.2.2 := by
    simp only [dot3, hF] at *
    linear_combination x.1 * c02 + x.2.1 * c12 + x.2.2 * c22
  rw [hn, hF'] at h
  constructor
  · intro hc
    rw [dot3_eq] at hc
    obtain ⟨hq, hrot⟩ := fromTwoVectors_spec axis c00 c00' hc
    set R := Quat.fromTwoVectors axis (fun k => B k 0) (fun k => B' k 0) with hR
    have h0 : dot3 (R.rotate F) (fun k => B' k 0) = x.1 := by
      rw [← hF0, ← rotate_dot R hq F (fun k => B k 0), hrot]
    have hlen := rows hB' (R.rotate F)
    rw [rotate_dot R hq F F, ← rows hB F, hF0, hF1, hF2, h0] at hlen
    rw [← h]
    exact ⟨h0, by simp only; linarith⟩
  · intro he
    subst he
    have hid : ∀ v, (Quat.fromTwoVectors axis (fun k => B' k 0) (fun k => B' k 0)).rotate v = v := by
      intro v
      have hcr : crossProduct (fun k => B' k 0) (fun k => B' k 0) = 0 := cross_self _
      have hs : Real.sqrt ((1 + 1) * 2) = 2 := by
        rw [show ((1 : ℝ) + 1) * 2 = 2 * 2 by norm_num, Real.sqrt_mul_self (by norm_num)]
      simp only [Quat.fromTwoVectors, normalized3_unit c00, dot3_eq, c00, hcr, hs]
      rw [if_neg (by norm_num)]
      funext i
      have : i = 0 ∨ i = 1 ∨ i = 2 := by fin_cases i <;> simp
      rcases this with rfl | rfl | rfl
      · rw [rotate_0]; simp
      · rw [rotate_1]; simp
      · rw [rotate_2]; simp
    rw [hid] at h
    rw [← h]
    ext
    · exact hF0
    · exact hF1
    · exact hF2

/-- **C52**, symplectic Euler impact-friction map in three dimensions (two friction impulses for each contact), caching normal and friction impulses. If
the contact bases are orthonormal, a contact whose basis has not changed starts from exactly the impulses it had at the end of the previous step; a contact
whose normal has turned (but not reversed, up to `1e-12`) starts from the same normal impulse and a friction impulse of the same magnitude; a new contact
starts from zero. -/
theorem C52_symplectic_friction_3d [DecidableEq ℝ] [Add V] [DecidableEq D] (axis : Vec3 → Vec3 → Vec3) (basis : Q → V → C → Mat3)
    (hbasis : ∀ q v c, OrthonormalBasis3 (basis q v c)) (e : FrictionEnv Q V C K ℝ P)
    (hde : e.decache3 = fun q v c r => decacheForce axis (basis q v c) r) (hen : e.encache3 = fun q v c i => encacheForce (basis q v c) i)
    (h3d : e.ambientDims ≠ 2) (ident : C → D) (hl : e.cache.Lawful ident)
    (hd : ∀ q q' v cs k vecs k', e.activeSet q q' v = .ok cs → storeAll e.cache k cs vecs = .ok k' → DifferentContacts ident cs)
    (start N : Nat) (s s' : MapState Q V K P) (rs : List (Option (SolveRecord Q V C ℝ)))
    (h : runMap (symplecticFlow e .normalAndFriction) start N s = .ok (s', rs)) :
    Consecutive rs (WarmTriple ident fun q v c x q' v' c' y =>
      (basis q' v' c' = basis q v c → y = x) ∧
      (-1 + 1 / 1000000000000 ≤ (fun i => basis q' v' c' i 0) ⬝ᵥ (fun i => basis q v c i 0) →
        y.1 = x.1 ∧ y.2.1 ^ 2 + y.2.2 ^ 2 = x.2.1 ^ 2 + x.2.2 ^ 2)) := by
  refine consecutive_of_step h _ fun it it' a b c prev r h1 h2 => ?_
  have hk : KeptRecord e.cache ident (fun p : SolveRecord Q V C ℝ => tripleVectors e p.q p.v p.contacts p.final.alpha p.final.beta) b.cache prev := by
    unfold symplecticFlow at h1
    obtain ⟨dv, _, h1⟩ := Outcome.bind_ok_iff.mp h1
    obtain ⟨cs, hcs, h1⟩ := Outcome.bind_ok_iff.mp h1
    split at h1
    · cases h1; exact kept_clear hl
    · obtain ⟨⟨i0, k0⟩, h0, h1⟩ := Outcome.bind_ok_iff.mp h1
      obtain ⟨⟨i1, v2, f'⟩, _, h1⟩ := Outcome.bind_ok_iff.mp h1
      obtain ⟨k, hk, h1⟩ := Outcome.bind_ok_iff.mp h1
      cases h1
      simp only [symplecticInit, if_neg h3d] at h0
      simp only [symplecticCache, if_neg h3d] at hk
      obtain ⟨al, _, h0⟩ := Outcome.bind_ok_iff.mp h0
      cases h0
      exact kept_storeAll hl (hd _ _ _ _ _ _ _ hcs hk) hk
  unfold symplecticFlow at h2
  obtain ⟨dv, _, h2⟩ := Outcome.bind_ok_iff.mp h2
  obtain ⟨cs, hcs, h2⟩ := Outcome.bind_ok_iff.mp h2
  split at h2
  · cases h2
  · obtain ⟨⟨i0, k0⟩, h0, h2⟩ := Outcome.bind_ok_iff.mp h2
    obtain ⟨⟨i1, v2, f'⟩, _, h2⟩ := Outcome.bind_ok_iff.mp h2
    obtain ⟨k, _, h2⟩ := Outcome.bind_ok_iff.mp h2
    cases h2
    simp only [symplecticInit, if_neg h3d] at h0
    obtain ⟨al, h4, h3⟩ := Outcome.bind_ok_iff.mp h0
    cases h3
    refine warm_of_triples _ (fun q v c x q' v' c' y hy => ?_) hk h4
    rw [hen, hde] at hy
    split at hy
    · rename_i hz
      exfalso
      have h00 : dot3 (fun k => basis q v c k 0) (fun k => basis q v c k 0) = 1 := by
        have := congrFun (congrFun (hbasis q v c) 0) 0
        rw [Matrix.mul_apply, Fin.sum_univ_three, Matrix.one_apply] at this
        simpa [dot3, Matrix.transpose_apply] using this
      have e0 := hz (basis q v c 0 0) (by simp [encacheForce])
      have e1 := hz (basis q v c 1 0) (by simp [encacheForce])
      have e2 := hz (basis q v c 2 0) (by simp [encacheForce])
      simp [dot3, e0, e1, e2] at h00
    · obtain ⟨ha, hb⟩ := decache_encache axis (hbasis q v c) (hbasis q' v' c') x y hy
      exact ⟨hb, ha⟩


/-! ## Warm starting in the simulations -/

/-- a step with a contact problem found its contacts and cached their impulses -/
theorem solved_impact [Zero S] {e : ImpactEnv Q V C K S} {it : Nat} {a b : MapState Q V K Unit} {r : SolveRecord Q V C S}
    (h : impactMapFlow e true it a = .ok (b, some r)) :
    ∃ q1 k vecs k', e.activeSet a.q q1 a.v = .ok r.contacts ∧ storeAll e.cache k r.contacts vecs = .ok k' := by
  unfold impactMapFlow at h
  obtain ⟨cs, hcs, h⟩ := Outcome.bind_ok_iff.mp h
  split at h
  · cases h
  · obtain ⟨a0, _, h⟩ := Outcome.bind_ok_iff.mp h
    obtain ⟨al, _, h⟩ := Outcome.bind_ok_iff.mp h
    obtain ⟨k, hk, h⟩ := Outcome.bind_ok_iff.mp h
    cases h
    simp only [if_true] at hk
    exact ⟨_, _, _, _, hcs, hk⟩

theorem solved_geometric [Zero S] {e : FrictionEnv Q V C K S P} {mode : ImpulsesToCache} (hm : mode ≠ .none) {it : Nat} {a b : MapState Q V K P}
    {r : SolveRecord Q V C S} (h : geometricFlow e mode it a = .ok (b, some r)) :
    ∃ q1 k vecs k', e.activeSet a.q q1 a.v = .ok r.contacts ∧ storeAll e.cache k r.contacts vecs = .ok k' := by
  unfold geometricFlow at h
  obtain ⟨cs, hcs, h⟩ := Outcome.bind_ok_iff.mp h
  split at h
  · cases h
  · obtain ⟨⟨i0, k0⟩, _, h⟩ := Outcome.bind_ok_iff.mp h
    obtain ⟨⟨i1, v2, f'⟩, _, h⟩ := Outcome.bind_ok_iff.mp h
    obtain ⟨k, hk, h⟩ := Outcome.bind_ok_iff.mp h
    cases h
    unfold geometricCache at hk
    cases mode with
    | none => exact absurd rfl hm
    | normal => exact ⟨_, _, _, _, hcs, hk⟩
    | normalAndFriction =>
      simp only at hk
      split at hk
      · exact ⟨_, _, _, _, hcs, hk⟩
      · cases hk

theorem solved_symplectic [Add V] [Zero S] [DecidableEq S] {e : FrictionEnv Q V C K S P} {mode : ImpulsesToCache} (hm : mode ≠ .none) {it : Nat}
    {a b : MapState Q V K P} {r : SolveRecord Q V C S} (h : symplecticFlow e mode it a = .ok (b, some r)) :
    ∃ q1 k vecs k', e.activeSet a.q q1 a.v = .ok r.contacts ∧ storeAll e.cache k r.contacts vecs = .ok k' := by
  unfold symplecticFlow at h
  obtain ⟨dv, _, h⟩ := Outcome.bind_ok_iff.mp h
  obtain ⟨cs, hcs, h⟩ := Outcome.bind_ok_iff.mp h
  split at h
  · cases h
  · obtain ⟨⟨i0, k0⟩, _, h⟩ := Outcome.bind_ok_iff.mp h
    obtain ⟨⟨i1, v2, f'⟩, _, h⟩ := Outcome.bind_ok_iff.mp h
    obtain ⟨k, hk, h⟩ := Outcome.bind_ok_iff.mp h
    cases h
    unfold symplecticCache at hk
    cases mode with
    | none => exact absurd rfl hm
    | normal => exact ⟨_, _, _, _, hcs, hk⟩
    | normalAndFriction =>
      simp only at hk
      split at hk
      · exact ⟨_, _, _, _, hcs, hk⟩
      · exact ⟨_, _, _, _, hcs, hk⟩

theorem ball_small {n : Nat} {junk : ℝ → ℤ} {sim : BallSim n} {planes : List (HalfPlane ℝ)} {drums : List Drum} {ps : List (PlanarPortal ℝ)}
    (hn : n < 4294967296) (hp : planes.length < 4294967296) (hd : drums.length < 4294967296) {q q' v : VecX n 2} {cs : List Contact}
    {k k' : BallCache} {vecs : List Impulse} (h : ballActiveSet junk sim planes drums ps q q' v = .ok cs)
    (hs : storeAll ballCacheSys k cs vecs = .ok k') : (∀ c ∈ cs, c.Small) ∧ DifferentContacts Contact.cacheKey cs := by
  have := activeSet_small (by simpa [ballSteps] using hn) hp hd h (storeAll_small hs)
  refine ⟨this.1, ?_⟩
  unfold DifferentContacts
  refine (List.nodup_map_iff_inj_on ?_).mpr ?_
  · exact this.2.of_map _
  · intro c hc c' hc' e
    exact List.inj_on_of_nodup_map this.2 hc hc' ((cacheKey_iff (this.1 c hc) (this.1 c' hc')).mp e)

theorem ident_normal {Q V : Type} {prev : Option (SolveRecord Q V Contact F64)} {r : SolveRecord Q V Contact F64}
    (hp : ∀ p, prev = some p → ∀ c ∈ p.contacts, c.Small) (hr : ∀ c ∈ r.contacts, c.Small) (h : WarmNormal Contact.cacheKey prev r) :
    WarmNormal Contact.who prev r := by
  refine ⟨fun p i j e ⟨c, c', h1, h2, h3⟩ => h.1 p i j e ⟨c, c', h1, h2, ?_⟩, fun j ⟨c', h1, h2⟩ => h.2 j ⟨c', h1, fun p e c hc he => h2 p e c hc ?_⟩⟩
  · exact (cacheKey_iff (hp p e c (List.mem_of_getElem? h1)) (hr c' (List.mem_of_getElem? h2))).mpr h3
  · exact (cacheKey_iff (hp p e c hc) (hr c' (List.mem_of_getElem? h1))).mp he

theorem ident_friction {Q V : Type} {prev : Option (SolveRecord Q V Contact F64)} {r : SolveRecord Q V Contact F64}
    (hp : ∀ p, prev = some p → ∀ c ∈ p.contacts, c.Small) (hr : ∀ c ∈ r.contacts, c.Small) (h : WarmFriction Contact.cacheKey prev r) :
    WarmFriction Contact.who prev r := by
  refine ⟨fun p i j e ⟨c, c', h1, h2, h3⟩ => h.1 p i j e ⟨c, c', h1, h2, ?_⟩, fun j ⟨c', h1, h2⟩ => h.2 j ⟨c', h1, fun p e c hc he => h2 p e c hc ?_⟩⟩
  · exact (cacheKey_iff (hp p e c (List.mem_of_getElem? h1)) (hr c' (List.mem_of_getElem? h2))).mpr h3
  · exact (cacheKey_iff (hp p e c hc) (hr c' (List.mem_of_getElem? h1))).mp he

theorem ballSimFlow_ok {n : Nat} {K P R : Type} {junk : ℝ → ℤ} {dt : ℝ}
    {inner : List (PlanarPortal ℝ) → Nat → MapState (VecX n 2) (VecX n 2) K P → Outcome (MapState (VecX n 2) (VecX n 2) K P × R)} {it : Nat}
    {s s' : List (PlanarPortal ℝ) × MapState (VecX n 2) (VecX n 2) K P} {r : R} (h : ballSimFlow junk dt inner it s = .ok (s', r)) :
    ∃ a ps, inner ps it s.2 = .ok (a, r) ∧ s'.2.cache = a.cache := by
  unfold ballSimFlow at h
  obtain ⟨⟨a, r'⟩, ha, h⟩ := Outcome.bind_ok_iff.mp h
  cases h
  exact ⟨a, _, ha, rfl⟩

/-- **C52**, balls without friction, the whole step of the simulation with its portals: in any run, a contact between the same objects starts from the impulse
it had at the end of the previous step, every other contact from zero. Integrator, impact operator and response are arbitrary. -/
theorem C52_ball_impact {n : Nat} (junk : ℝ → ℤ) (sim : BallSim n) (planes : List (HalfPlane ℝ)) (drums : List Drum) (hn : n < 4294967296)
    (hp : planes.length < 4294967296) (hd : drums.length < 4294967296) (dt : ℝ)
    (e : List (PlanarPortal ℝ) → ImpactEnv (VecX n 2) (VecX n 2) Contact BallCache F64) (hc : ∀ ps, (e ps).cache = ballCacheSys)
    (ha : ∀ ps, (e ps).activeSet = ballActiveSet junk sim planes drums ps) (start N : Nat)
    (s s' : List (PlanarPortal ℝ) × MapState (VecX n 2) (VecX n 2) BallCache Unit)
    (rs : List (Option (SolveRecord (VecX n 2) (VecX n 2) Contact F64)))
    (h : runMap (ballSimFlow junk dt fun ps => impactMapFlow (e ps) true) start N s = .ok (s', rs)) : Consecutive rs (WarmNormal Contact.who) := by
  refine consecutive_of_step h _ fun it it' a b c prev r h1 h2 => ?_
  obtain ⟨b', ps, h1, hb⟩ := ballSimFlow_ok h1
  obtain ⟨c', ps', h2, _⟩ := ballSimFlow_ok h2
  have hsmall : ∀ ps it (a b : MapState (VecX n 2) (VecX n 2) BallCache Unit) r, impactMapFlow (e ps) true it a = .ok (b, some r) → ∀ c ∈ r.contacts, c.Small := by
    intro ps it a b r h
    obtain ⟨q1, k, vecs, k', h3, h4⟩ := solved_impact h
    rw [ha] at h3; rw [hc] at h4
    exact (ball_small hn hp hd h3 h4).1
  refine ident_normal ?_ (hsmall _ _ _ _ _ h2) ?_
  · rintro p rfl; exact hsmall _ _ _ _ _ h1
  · refine warm_impact_step (e ps) (e ps') (by rw [hc, hc]) Contact.cacheKey (by rw [hc]; exact ballCache_lawful) ?_ hb h1 h2
    intro q q' v cs k vecs k' h3 h4
    rw [ha] at h3; rw [hc] at h4
    exact (ball_small hn hp hd h3 h4).2

/-- **C52**, balls with the geometric impact-friction map, caching normal impulses. -/
theorem C52_ball_geometric_normal {n : Nat} (junk : ℝ → ℤ) (sim : BallSim n) (planes : List (HalfPlane ℝ)) (drums : List Drum) (hn : n < 4294967296)
    (hp : planes.length < 4294967296) (hd : drums.length < 4294967296) (dt : ℝ)
    (e : List (PlanarPortal ℝ) → FrictionEnv (VecX n 2) (VecX n 2) Contact BallCache F64 P) (hc : ∀ ps, (e ps).cache = ballCacheSys)
    (ha : ∀ ps, (e ps).activeSet = ballActiveSet junk sim planes drums ps) (start N : Nat)
    (s s' : List (PlanarPortal ℝ) × MapState (VecX n 2) (VecX n 2) BallCache P)
    (rs : List (Option (SolveRecord (VecX n 2) (VecX n 2) Contact F64)))
    (h : runMap (ballSimFlow junk dt fun ps => geometricFlow (e ps) .normal) start N s = .ok (s', rs)) :
    Consecutive rs (fun prev r => WarmNormal Contact.who prev r ∧ ∀ b ∈ r.start.beta, b = 0) := by
  refine consecutive_of_step h _ fun it it' a b c prev r h1 h2 => ?_
  obtain ⟨b', ps, h1, hb⟩ := ballSimFlow_ok h1
  obtain ⟨c', ps', h2, _⟩ := ballSimFlow_ok h2
  have hsmall : ∀ ps it (a b : MapState (VecX n 2) (VecX n 2) BallCache P) r, geometricFlow (e ps) .normal it a = .ok (b, some r) → ∀ c ∈ r.contacts, c.Small := by
    intro ps it a b r h
    obtain ⟨q1, k, vecs, k', h3, h4⟩ := solved_geometric (by decide) h
    rw [ha] at h3; rw [hc] at h4
    exact (ball_small hn hp hd h3 h4).1
  have key := warm_geometric_normal_step (e ps) (e ps') (by rw [hc, hc]) Contact.cacheKey (by rw [hc]; exact ballCache_lawful) (by
    intro q q' v cs k vecs k' h3 h4
    rw [ha] at h3; rw [hc] at h4
    exact (ball_small hn hp hd h3 h4).2) hb h1 h2
  exact ⟨ident_normal (by rintro p rfl; exact hsmall _ _ _ _ _ h1) (hsmall _ _ _ _ _ h2) key.1, key.2⟩

/-- **C52**, balls with the geometric impact-friction map, caching normal and friction impulses. -/
theorem C52_ball_geometric_friction {n : Nat} (junk : ℝ → ℤ) (sim : BallSim n) (planes : List (HalfPlane ℝ)) (drums : List Drum) (hn : n < 4294967296)
    (hp : planes.length < 4294967296) (hd : drums.length < 4294967296) (dt : ℝ)
    (e : List (PlanarPortal ℝ) → FrictionEnv (VecX n 2) (VecX n 2) Contact BallCache F64 P) (hc : ∀ ps, (e ps).cache = ballCacheSys)
    (ha : ∀ ps, (e ps).activeSet = ballActiveSet junk sim planes drums ps) (start N : Nat)
    (s s' : List (PlanarPortal ℝ) × MapState (VecX n 2) (VecX n 2) BallCache P)
    (rs : List (Option (SolveRecord (VecX n 2) (VecX n 2) Contact F64)))
    (h : runMap (ballSimFlow junk dt fun ps => geometricFlow (e ps) .normalAndFriction) start N s = .ok (s', rs)) :
    Consecutive rs (fun prev r => WarmNormal Contact.who prev r ∧ WarmFriction Contact.who prev r) := by
  refine consecutive_of_step h _ fun it it' a b c prev r h1 h2 => ?_
  obtain ⟨b', ps, h1, hb⟩ := ballSimFlow_ok h1
  obtain ⟨c', ps', h2, _⟩ := ballSimFlow_ok h2
  have hsmall : ∀ ps it (a b : MapState (VecX n 2) (VecX n 2) BallCache P) r, geometricFlow (e ps) .normalAndFriction it a = .ok (b, some r) →
      ∀ c ∈ r.contacts, c.Small := by
    intro ps it a b r h
    obtain ⟨q1, k, vecs, k', h3, h4⟩ := solved_geometric (by decide) h
    rw [ha] at h3; rw [hc] at h4
    exact (ball_small hn hp hd h3 h4).1
  have key := warm_geometric_friction_step (e ps) (e ps') (by rw [hc, hc]) Contact.cacheKey (by rw [hc]; exact ballCache_lawful) (by
    intro q q' v cs k vecs k' h3 h4
    rw [ha] at h3; rw [hc] at h4
    exact (ball_small hn hp hd h3 h4).2) hb h1 h2
  have hp : ∀ p, prev = some p → ∀ c ∈ p.contacts, c.Small := by rintro p rfl; exact hsmall _ _ _ _ _ h1
  exact ⟨ident_normal hp (hsmall _ _ _ _ _ h2) key.1, ident_friction hp (hsmall _ _ _ _ _ h2) key.2⟩

/-- **C52**, balls with the symplectic Euler impact-friction map, caching normal impulses. -/
theorem C52_ball_symplectic_normal {n : Nat} (junk : ℝ → ℤ) (sim : BallSim n) (planes : List (HalfPlane ℝ)) (drums : List Drum) (hn : n < 4294967296)
    (hp : planes.length < 4294967296) (hd : drums.length < 4294967296) (dt : ℝ)
    (e : List (PlanarPortal ℝ) → FrictionEnv (VecX n 2) (VecX n 2) Contact BallCache F64 P) (hc : ∀ ps, (e ps).cache = ballCacheSys)
    (ha : ∀ ps, (e ps).activeSet = ballActiveSet junk sim planes drums ps) (start N : Nat)
    (s s' : List (PlanarPortal ℝ) × MapState (VecX n 2) (VecX n 2) BallCache P)
    (rs : List (Option (SolveRecord (VecX n 2) (VecX n 2) Contact F64)))
    (h : runMap (ballSimFlow junk dt fun ps => symplecticFlow (e ps) .normal) start N s = .ok (s', rs)) :
    Consecutive rs (fun prev r => WarmNormal Contact.who prev r ∧ ∀ b ∈ r.start.beta, b = 0) := by
  refine consecutive_of_step h _ fun it it' a b c prev r h1 h2 => ?_
  obtain ⟨b', ps, h1, hb⟩ := ballSimFlow_ok h1
  obtain ⟨c', ps', h2, _⟩ := ballSimFlow_ok h2
  have hsmall : ∀ ps it (a b : MapState (VecX n 2) (VecX n 2) BallCache P) r, symplecticFlow (e ps) .normal it a = .ok (b, some r) → ∀ c ∈ r.contacts, c.Small := by
    intro ps it a b r h
    obtain ⟨q1, k, vecs, k', h3, h4⟩ := solved_symplectic (by decide) h
    rw [ha] at h3; rw [hc] at h4
    exact (ball_small hn hp hd h3 h4).1
  have key := warm_symplectic_normal_step (e ps) (e ps') (by rw [hc, hc]) Contact.cacheKey (by rw [hc]; exact ballCache_lawful) (by
    intro q q' v cs k vecs k' h3 h4
    rw [ha] at h3; rw [hc] at h4
    exact (ball_small hn hp hd h3 h4).2) hb h1 h2
  exact ⟨ident_normal (by rintro p rfl; exact hsmall _ _ _ _ _ h1) (hsmall _ _ _ _ _ h2) key.1, key.2⟩

/-- **C52**, balls with the symplectic Euler impact-friction map, caching normal and friction impulses. -/
theorem C52_ball_symplectic_friction {n : Nat} (junk : ℝ → ℤ) (sim : BallSim n) (planes : List (HalfPlane ℝ)) (drums : List Drum) (hn : n < 4294967296)
    (hp : planes.length < 4294967296) (hd : drums.length < 4294967296) (dt : ℝ)
    (e : List (PlanarPortal ℝ) → FrictionEnv (VecX n 2) (VecX n 2) Contact BallCache F64 P) (hc : ∀ ps, (e ps).cache = ballCacheSys)
    (h2d : ∀ ps, (e ps).ambientDims = 2) (ha : ∀ ps, (e ps).activeSet = ballActiveSet junk sim planes drums ps) (start N : Nat)
    (s s' : List (PlanarPortal ℝ) × MapState (VecX n 2) (VecX n 2) BallCache P)
    (rs : List (Option (SolveRecord (VecX n 2) (VecX n 2) Contact F64)))
    (h : runMap (ballSimFlow junk dt fun ps => symplecticFlow (e ps) .normalAndFriction) start N s = .ok (s', rs)) :
    Consecutive rs (fun prev r => WarmNormal Contact.who prev r ∧ WarmFriction Contact.who prev r) := by
  refine consecutive_of_step h _ fun it it' a b c prev r h1 h2 => ?_
  obtain ⟨b', ps, h1, hb⟩ := ballSimFlow_ok h1
  obtain ⟨c', ps', h2, _⟩ := ballSimFlow_ok h2
  have hsmall : ∀ ps it (a b : MapState (VecX n 2) (VecX n 2) BallCache P) r, symplecticFlow (e ps) .normalAndFriction it a = .ok (b, some r) →
      ∀ c ∈ r.contacts, c.Small := by
    intro ps it a b r h
    obtain ⟨q1, k, vecs, k', h3, h4⟩ := solved_symplectic (by decide) h
    rw [ha] at h3; rw [hc] at h4
    exact (ball_small hn hp hd h3 h4).1
  have key := warm_symplectic_friction_step (e ps) (e ps') (by rw [hc, hc]) (h2d ps) (h2d ps') Contact.cacheKey (by rw [hc]; exact ballCache_lawful) (by
    intro q q' v cs k vecs k' h3 h4
    rw [ha] at h3; rw [hc] at h4
    exact (ball_small hn hp hd h3 h4).2) hb h1 h2
  have hp : ∀ p, prev = some p → ∀ c ∈ p.contacts, c.Small := by rintro p rfl; exact hsmall _ _ _ _ _ h1
  exact ⟨ident_normal hp (hsmall _ _ _ _ _ h2) key.1, ident_friction hp (hsmall _ _ _ _ _ h2) key.2⟩

/-- C52: a step that finds a contact through a portal cannot be warm started: the run ends. -/
theorem C52_teleported_exits {n : Nat} (e : ImpactEnv (VecX n 2) (VecX n 2) Contact BallCache F64) (hc : e.cache = ballCacheSys) (it : Nat)
    (s : MapState (VecX n 2) (VecX n 2) BallCache Unit) (cs : List Contact) (ha : e.activeSet s.q (e.umap it s.q s.v).1 s.v = .ok cs) (b : BallBall)
    (hb : .ballBall b ∈ cs) (ht : b.teleported = true) (s' : MapState (VecX n 2) (VecX n 2) BallCache Unit)
    (r : Option (SolveRecord (VecX n 2) (VecX n 2) Contact F64)) : impactMapFlow e true it s ≠ .ok (s', r) := by
  intro h
  cases r with
  | none =>
    unfold impactMapFlow at h
    simp only [ha, Outcome.bind] at h
    rw [if_neg (by rintro rfl; simp at hb)] at h
    obtain ⟨_, _, h⟩ := Outcome.bind_ok_iff.mp h
    obtain ⟨_, _, h⟩ := Outcome.bind_ok_iff.mp h
    obtain ⟨_, _, h⟩ := Outcome.bind_ok_iff.mp h
    cases h
  | some r =>
    unfold impactMapFlow at h
    simp only [ha, Outcome.bind] at h
    rw [if_neg (by rintro rfl; simp at hb)] at h
    obtain ⟨_, _, h⟩ := Outcome.bind_ok_iff.mp h
    obtain ⟨_, _, h⟩ := Outcome.bind_ok_iff.mp h
    obtain ⟨_, hk, h⟩ := Outcome.bind_ok_iff.mp h
    simp only [if_true, cacheNormal, hc] at hk
    have := (storeAll_small hk b hb).1
    rw [ht] at this
    cases this

/-- C52, 2D rigid bodies without friction (part of the property): if no two contacts of a step are different points of the same two boxes, warm starting
works (`RB2DContact.key` identifies a contact by its two bodies). Without that hypothesis it does not, see `C52_rb2d_false`. -/
theorem C52_rb2d_impact_partial (e : ImpactEnv Q V RB2DContact RB2DCache F64) (hc : e.cache = rb2dCacheSys)
    (hd : ∀ q q' v cs, e.activeSet q q' v = .ok cs → DifferentContacts RB2DContact.key cs) (start N : Nat) (s s' : MapState Q V RB2DCache Unit)
    (rs : List (Option (SolveRecord Q V RB2DContact F64))) (h : runMap (impactMapFlow e true) start N s = .ok (s', rs)) :
    Consecutive rs (WarmNormal RB2DContact.key) :=
  C52_impact e RB2DContact.key (by rw [hc]; exact rb2dCache_lawful) (fun _ _ _ _ _ _ _ h _ => hd _ _ _ _ h) start N s s' rs h

/-- C52, 2D rigid bodies with friction (part of the property, as above). -/
theorem C52_rb2d_geometric_partial (e : FrictionEnv Q V RB2DContact RB2DCache F64 P) (hc : e.cache = rb2dCacheSys)
    (hd : ∀ q q' v cs, e.activeSet q q' v = .ok cs → DifferentContacts RB2DContact.key cs) (start N : Nat) (s s' : MapState Q V RB2DCache P)
    (rs : List (Option (SolveRecord Q V RB2DContact F64))) (h : runMap (geometricFlow e .normalAndFriction) start N s = .ok (s', rs)) :
    Consecutive rs (fun prev r => WarmNormal RB2DContact.key prev r ∧ WarmFriction RB2DContact.key prev r) :=
  C52_geometric_friction e RB2DContact.key (by rw [hc]; exact rb2dCache_lawful) (fun _ _ _ _ _ _ _ h _ => hd _ _ _ _ h) start N s s' rs h

/-- Two boxes that touch in two points, the impact operator returning the impulses 1 and 2 in every step. -/
def twoPointEnv : ImpactEnv Unit Unit RB2DContact RB2DCache F64 where
  cache := rb2dCacheSys
  activeSet _ _ _ := .ok [.bodyBody 0 1 0, .bodyBody 0 1 1]
  umap _ _ _ := ((), ())
  imap _ _ _ _ := .ok [⟨1⟩, ⟨2⟩]
  respond _ _ _ _ := ()

/-- **C52 is false for 2D rigid bodies**: of two boxes that touch in two points, the second contact starts from the impulse of the first. -/
theorem C52_rb2d_false : ∃ s' rs, runMap (impactMapFlow twoPointEnv true) 0 2 ⟨(), (), RB2DCache.clear, ()⟩ = .ok (s', rs) ∧
    ¬Consecutive rs (WarmNormal (id : RB2DContact → RB2DContact)) ∧
    ∃ r, rs[1]? = some (some r) ∧ r.start.alpha = [⟨1⟩, ⟨1⟩] ∧ r.final.alpha = [⟨1⟩, ⟨2⟩] := by
  refine ⟨_, _, rfl, fun h => ?_, _, rfl, rfl, rfl⟩
  obtain ⟨a, ha, hb⟩ := (h 0 _ _ rfl rfl).1 _ 1 1 rfl ⟨_, _, rfl, rfl, rfl⟩
  cases ha
  exact absurd hb (by decide)

/-- **C52**, 3D rigid bodies without friction: the cache tells all contacts apart, so with contact lists without repetitions warm starting works. (A list whose
impulses could be cached holds only contacts of spheres.) -/
theorem C52_rb3d_impact (e : ImpactEnv Q V RB3DContact RB3DCache F64) (hc : e.cache = rb3dCacheSys)
    (hd : ∀ q q' v cs, e.activeSet q q' v = .ok cs → cs.Nodup) (start N : Nat) (s s' : MapState Q V RB3DCache Unit)
    (rs : List (Option (SolveRecord Q V RB3DContact F64))) (h : runMap (impactMapFlow e true) start N s = .ok (s', rs)) :
    Consecutive rs (WarmNormal (id : RB3DContact → RB3DContact)) :=
  C52_impact e id (by rw [hc]; exact rb3dCache_lawful) (fun _ _ _ _ _ _ _ h _ => by unfold DifferentContacts; rw [List.map_id]; exact hd _ _ _ _ h)
    start N s s' rs h

/-! ### The hypotheses can be met -/

/-- a ball resting on a plane -/
def restSim : BallSim 1 := ⟨fun _ => 1, fun _ => false, fun _ _ => 1, fun _ _ => 1, []⟩
def restPlane : HalfPlane ℝ := ⟨⟨0, 0⟩, ⟨0, 0⟩, ⟨0, 1⟩, ⟨-1, 0⟩⟩
def restQ : VecX 1 2 := fun _ => ![0, 1]

theorem restSteps : ballSteps restSim restQ restQ = [⟨⟨0, 1⟩, ⟨0, 1⟩, 1, false⟩] := by
  simp [ballSteps, restSim, restQ]

theorem restActive (junk : ℝ → ℤ) : ballActiveSet junk restSim [restPlane] [] [] restQ restQ 0 = .ok [.plane 0 ⟨0, 1⟩ 0] := by
  have hpos : ∀ b ∈ ballSteps restSim restQ restQ, 0 < b.r := by
    intro b hb; rw [restSteps] at hb; simp only [List.mem_singleton] at hb; subst hb; norm_num
  have hw : cellWidth ([(⟨⟨0, 1⟩, ⟨0, 1⟩, 1, false⟩ : BallStep)].map sweptBox) = 2 := by
    have h : (fun i => ![(1 : ℝ), 1 + 1] i - ![-1, 0] i) = fun _ => 2 := by
      funext i; fin_cases i <;> simp <;> norm_num
    simp [cellWidth, sweptBox]
    rw [h]
    simp [maxCoeff, Fin.tail]
  obtain ⟨cs, h1, _, _, hp⟩ := C18_exact_partial junk (ballSteps restSim restQ restQ) (by rw [restSteps]; simp) hpos (by
    rw [restSteps]
    intro a ha b hb i
    rw [hw]
    simp only [List.map_cons, List.map_nil, List.mem_singleton] at ha hb
    subst ha; subst hb
    fin_cases i <;> simp [sweptBox] <;> norm_num) [restPlane] []
  unfold ballActiveSet
  have h1' := h1
  unfold computeActiveSet at h1'
  obtain ⟨bl, hbl, h1'⟩ := Outcome.bind_ok_iff.mp h1'
  cases h1'
  simp only [List.length_nil, if_true, computeBallBallActiveSetSpatialGrid] at hbl
  obtain ⟨ps, hps, hbl⟩ := Outcome.bind_ok_iff.mp hbl
  cases hbl
  have hnil : ps.filterMap (narrowPhase (ballSteps restSim restQ restQ)) = [] := by
    rw [List.eq_nil_iff_forall_not_mem]
    intro c hc
    obtain ⟨p, _, hx⟩ := List.mem_filterMap.mp hc
    obtain ⟨a, b, ha, hb, rfl⟩ := narrowPhase_form hx
    have hm := (hp p.1 p.2).mp (by
      rw [ballPairs_append, ballPairs_append]
      refine List.mem_append_left _ (List.mem_append_left _ (List.mem_filterMap.mpr ⟨_, hc, ?_⟩))
      simp [mkBallBall])
    have l2 := (List.getElem?_eq_some_iff.mp hb).1
    rw [restSteps] at l2
    simp only [List.length_singleton] at l2
    omega
  rw [h1, hnil]
  simp [drumContacts, planeContacts, restSteps, restPlane, planeIsActive, V2.dot]

noncomputable def restEnv (junk : ℝ → ℤ) (ps : List (PlanarPortal ℝ)) : ImpactEnv (VecX 1 2) (VecX 1 2) Contact BallCache F64 where
  cache := ballCacheSys
  activeSet := ballActiveSet junk restSim [restPlane] [] ps
  umap _ q v := (q, v)
  imap _ _ _ _ := .ok [⟨1⟩]
  respond _ v _ _ := v

/-- A ball resting on a plane for two steps, the impact operator returning the impulse `1`: the run exists, both steps have a contact, and the second starts
from the impulse of the first. -/
example (junk : ℝ → ℤ) : ∃ (e : List (PlanarPortal ℝ) → ImpactEnv (VecX 1 2) (VecX 1 2) Contact BallCache F64) (s' : _) (rs : _),
    (∀ ps, (e ps).cache = ballCacheSys) ∧ (∀ ps, (e ps).activeSet = ballActiveSet junk restSim [restPlane] [] ps) ∧
    runMap (ballSimFlow junk 1 fun ps => impactMapFlow (e ps) true) 0 2 ([], ⟨restQ, 0, BallCache.clear, ()⟩) = .ok (s', rs) ∧
    ∃ r0 r1, rs = [some r0, some r1] ∧ r0.start.alpha = [0] ∧ r1.start.alpha = [⟨1⟩] := by
  have hq : ∀ q : VecX 1 2, (ofBodies (enforcePeriodicBoundaryConditions junk [] (toBodies q 0)) : VecX 1 2 × VecX 1 2) = (q, 0) := by
    intro q
    refine Prod.ext ?_ ?_ <;> funext i k <;> fin_cases i <;> fin_cases k <;>
      simp [enforcePeriodicBoundaryConditions, ofBodies, toBodies]
  let k1 : BallCache := match BallCache.clear.store (.planeBall 0 0) [⟨1⟩] with | .ok k => k | _ => .clear
  let r (a : F64) : SolveRecord (VecX 1 2) (VecX 1 2) Contact F64 := ⟨restQ, 0, [.plane 0 ⟨0, 1⟩ 0], ⟨[a], []⟩, ⟨[⟨1⟩], []⟩⟩
  have step : ∀ it k a, decacheNormal ballCacheSys k [.plane 0 ⟨0, 1⟩ 0] = .ok [a] →
      ballSimFlow junk 1 (fun ps => impactMapFlow (restEnv junk ps) true) it ([], ⟨restQ, 0, k, ()⟩) = .ok (([], ⟨restQ, 0, k1, ()⟩), some (r a)) := by
    intro it k a h
    have hc : cacheNormal ballCacheSys ballCacheSys.clear [Contact.plane 0 ⟨0, 1⟩ 0] [⟨1⟩] = .ok k1 := rfl
    simp only [ballSimFlow, impactMapFlow, restEnv, updatePeriodicBoundaryConditionsStartOfStep, List.map_nil, restActive, Outcome.bind, if_true, h, hc,
      reduceCtorEq, if_false, hq, r]
  refine ⟨restEnv junk, ([], ⟨restQ, 0, k1, ()⟩), [some (r 0), some (r ⟨1⟩)], fun _ => rfl, fun _ => rfl, ?_, _, _, rfl, rfl, rfl⟩
  simp only [runMap, Outcome.bind, step _ BallCache.clear 0 rfl, step _ k1 ⟨1⟩ rfl, List.nil_append, List.cons_append]

/-- C34: a ball high above the plane meets the hypotheses of `C34_ball_isolated`. -/
example : let sim := restSim; let q : VecX 1 2 := fun _ => ![0, 5]
    Spread ((ballSteps sim q q).map sweptBox) 65536 ∧ ((ballSteps sim q q).Pairwise fun a b => ¬SweptCollide a b) ∧
    ∀ b ∈ ballSteps sim q q, ∀ p ∈ [restPlane], ¬MeetsSolid b p := by
  intro sim q
  have hs : ballSteps sim q q = [⟨⟨0, 5⟩, ⟨0, 5⟩, 1, false⟩] := by simp [sim, q, ballSteps, restSim]
  rw [hs]
  have hw : cellWidth ([(⟨⟨0, 5⟩, ⟨0, 5⟩, 1, false⟩ : BallStep)].map sweptBox) = 2 := by
    have h : (fun i => ![(1 : ℝ), 5 + 1] i - ![-1, 5 - 1] i) = fun _ => 2 := by
      funext i; fin_cases i <;> simp <;> norm_num
    simp [cellWidth, sweptBox]
    rw [h]
    simp [maxCoeff, Fin.tail]
  refine ⟨?_, by simp, ?_⟩
  · intro a ha b hb i
    rw [hw]
    simp only [List.map_cons, List.map_nil, List.mem_singleton] at ha hb
    subst ha; subst hb
    fin_cases i <;> simp [sweptBox] <;> norm_num
  · intro b hb p hp
    simp only [List.mem_singleton] at hb hp
    subst hb; subst hp
    rintro ⟨x, h1, h2⟩
    simp only [InDisc, distSq, restPlane, HalfPlane.height, V2.dot] at h1 h2
    simp at h1 h2
    nlinarith

end Scisim
