import Verif.Lemmas.Snapshot
import Verif.Props.Codec
/-!
# C06, C07, C08: simulations and solver configurations survive a snapshot
-/

namespace Scisim

/-! ## C06: 2D ball simulations -/

/-- **C06, all simulations without penalty forces.** Loading what was saved gives the simulation back — positions, velocities,
radii, fixed flags, mass matrices, drums, planes, portals, forces and cached impulses — and consumes exactly the bytes saved.
Missing for the full property: simulations with a penalty force, for which it is false (`C06_penalty_forces_lost`). -/
theorem C06_ball2d_snapshot_partial (s : Ball2D.Sim) (h : s.Fits) (hp : ∀ f ∈ s.state.forces, ¬ f.isPenalty) :
    RoundTrip Ball2D.serSim Ball2D.deSim s :=
  Reads.bind (Ball2D.reads_state _ h.state hp) (Reads.bind_nil (reads_ballCache _ h.cache) (Reads.pure _))

/-- **The full C06 is false**: every saved simulation with a penalty force makes the loading program exit. -/
theorem C06_penalty_forces_lost (s : Ball2D.Sim) (h : s.Fits) (hp : ∃ f ∈ s.state.forces, f.isPenalty) :
    LoadExits Ball2D.deSim (Ball2D.serSim s) :=
  Exits.bind_left (Ball2D.exits_state _ h.state hp) _

/-- Two different simulations (without penalty forces) are never saved to the same bytes. -/
theorem C06_ball2d_snapshot_injective (s t : Ball2D.Sim) (hs : s.Fits) (ht : t.Fits)
    (hps : ∀ f ∈ s.state.forces, ¬ f.isPenalty) (hpt : ∀ f ∈ t.state.forces, ¬ f.isPenalty)
    (h : Ball2D.serSim s = Ball2D.serSim t) : s = t := by
  have h1 := C06_ball2d_snapshot_partial s hs hps []
  have h2 := C06_ball2d_snapshot_partial t ht hpt []
  rw [h] at h1
  simpa using h1.symm.trans h2

/-- A simulation with two balls, one of them fixed, a drum, a plane, a portal, gravity and cached impulses. -/
def exampleBallSim (forces : List Ball2D.Force) : Ball2D.Sim where
  state :=
    { q := [⟨1⟩, ⟨2⟩, ⟨3⟩, ⟨4⟩], v := [⟨5⟩, ⟨6⟩, ⟨7⟩, ⟨8⟩], r := [⟨9⟩, ⟨10⟩], fixed := [false, true],
      M := exampleSparse, Minv := exampleSparse,
      drums := [⟨⟨⟨1⟩, ⟨2⟩⟩, ⟨3⟩⟩], planes := [⟨⟨⟨1⟩, ⟨2⟩⟩, ⟨⟨3⟩, ⟨4⟩⟩, ⟨⟨5⟩, ⟨6⟩⟩, ⟨⟨7⟩, ⟨8⟩⟩⟩],
      portals := [⟨⟨⟨⟨1⟩, ⟨2⟩⟩, ⟨⟨3⟩, ⟨4⟩⟩, ⟨⟨5⟩, ⟨6⟩⟩, ⟨⟨7⟩, ⟨8⟩⟩⟩, ⟨⟨⟨1⟩, ⟨2⟩⟩, ⟨⟨3⟩, ⟨4⟩⟩, ⟨⟨5⟩, ⟨6⟩⟩, ⟨⟨7⟩, ⟨8⟩⟩⟩,
        ⟨1⟩, ⟨2⟩, ⟨3⟩⟩],
      forces := forces }
  cache := ⟨[((0, 1), [⟨7⟩, ⟨8⟩])], [], [((0, 0), [⟨1⟩]), ((0, 1), [⟨2⟩])]⟩

theorem exampleBallSim_fits (forces : List Ball2D.Force) (h : forces.length < 18446744073709551616) :
    (exampleBallSim forces).Fits := by
  have h0 : (exampleBallSim []).Fits := by
    refine ⟨⟨by decide, by decide, by decide, by decide, exampleSparse_wf, exampleSparse_wf, by decide, by decide, by decide,
      by decide⟩, ⟨⟨?_, by decide, by decide⟩, ⟨?_, by decide, by decide⟩, ⟨?_, by decide, by decide⟩⟩⟩ <;>
    · unfold ImpulseMap.Sorted; decide
  exact ⟨⟨h0.state.q, h0.state.v, h0.state.r, h0.state.fixed, h0.state.M, h0.state.Minv, h0.state.drums, h0.state.planes,
    h0.state.portals, h⟩, h0.cache⟩

example : RoundTrip Ball2D.serSim Ball2D.deSim (exampleBallSim [.gravity ⟨⟨1⟩, ⟨2⟩⟩]) :=
  C06_ball2d_snapshot_partial _ (exampleBallSim_fits _ (by decide)) (by
    intro f hf
    simp only [exampleBallSim, List.mem_singleton] at hf
    subst hf
    simp [Ball2D.Force.isPenalty])

example : LoadExits Ball2D.deSim (Ball2D.serSim (exampleBallSim [.gravity ⟨⟨1⟩, ⟨2⟩⟩, .penalty ⟨1⟩ ⟨2⟩])) :=
  C06_penalty_forces_lost _ (exampleBallSim_fits _ (by decide)) ⟨.penalty ⟨1⟩ ⟨2⟩, by simp [exampleBallSim], trivial⟩

/-! ## C07: 2D rigid body simulations -/

/-- **C07.** Loading what was saved gives the simulation back: configuration, velocities, masses, fixed flags, geometry and its
indices, forces, planes, portals and cached impulses; exactly the saved bytes are consumed. -/
theorem C07_rb2d_snapshot (s : RB2D.Sim) (h : s.Fits) : RoundTrip RB2D.serSim RB2D.deSim s :=
  Reads.bind (RB2D.reads_state _ h.state) (Reads.bind_nil (reads_rb2dCache _ h.cache) (Reads.pure _))

/-- Two different simulations are never saved to the same bytes. -/
theorem C07_rb2d_snapshot_injective (s t : RB2D.Sim) (hs : s.Fits) (ht : t.Fits)
    (h : RB2D.serSim s = RB2D.serSim t) : s = t := by
  have h1 := C07_rb2d_snapshot s hs []
  have h2 := C07_rb2d_snapshot t ht []
  rw [h] at h1
  simpa using h1.symm.trans h2

/-- A simulation with a circle and a box sharing nothing, gravity, a plane, a portal and cached impulses. -/
def exampleRB2DSim : RB2D.Sim where
  state :=
    { q := [⟨1⟩, ⟨2⟩, ⟨3⟩, ⟨4⟩, ⟨5⟩, ⟨6⟩], v := [⟨1⟩, ⟨2⟩, ⟨3⟩, ⟨4⟩, ⟨5⟩, ⟨6⟩],
      M := exampleSparse, Minv := exampleSparse, fixed := [false, true], geoIdx := [1, 0],
      geometry := [.circle ⟨5⟩, .box ⟨⟨1⟩, ⟨2⟩⟩], forces := [⟨⟨⟨1⟩, ⟨2⟩⟩⟩],
      planes := [⟨⟨⟨1⟩, ⟨2⟩⟩, ⟨⟨3⟩, ⟨4⟩⟩, ⟨⟨5⟩, ⟨6⟩⟩, ⟨⟨7⟩, ⟨8⟩⟩, ⟨9⟩⟩],
      portals := [⟨⟨⟨⟨1⟩, ⟨2⟩⟩, ⟨⟨3⟩, ⟨4⟩⟩, ⟨⟨5⟩, ⟨6⟩⟩, ⟨⟨7⟩, ⟨8⟩⟩, ⟨9⟩⟩,
        ⟨⟨⟨1⟩, ⟨2⟩⟩, ⟨⟨3⟩, ⟨4⟩⟩, ⟨⟨5⟩, ⟨6⟩⟩, ⟨⟨7⟩, ⟨8⟩⟩, ⟨9⟩⟩, ⟨1⟩, ⟨2⟩, ⟨3⟩⟩] }
  cache := ⟨[((0, 1), [⟨7⟩, ⟨8⟩])], [], [((0, 0), [⟨1⟩]), ((0, 1), [⟨2⟩])], []⟩

theorem exampleRB2DSim_fits : exampleRB2DSim.Fits := by
  refine ⟨⟨by decide, by decide, exampleSparse_wf, exampleSparse_wf, by decide, by decide, by decide, by decide, by decide,
    by decide⟩, ⟨⟨?_, by decide, by decide⟩, ⟨?_, by decide, by decide⟩, ⟨?_, by decide, by decide⟩,
    ⟨?_, by decide, by decide⟩⟩⟩ <;>
  · unfold ImpulseMap.Sorted; decide

example : RoundTrip RB2D.serSim RB2D.deSim exampleRB2DSim := C07_rb2d_snapshot _ exampleRB2DSim_fits

/-! ## C08: solver configurations -/

/-- **C08, impact operators.** For every operator available in the program, nested to any depth, either saving ends the program
loudly (exactly when a Jacobi or `lcp_ql_vp` solver occurs in it) or the saved bytes load to the same operator. -/
theorem C08_impact_operator (b : Build) (op : ImpactOp) (ha : op.Available b) :
    (¬ op.Savable ∧ serImpactOp op = .exit) ∨
    (op.Savable ∧ ∃ bs, serImpactOp op = .ok bs ∧ RoundTrip (fun _ => bs) (deImpactOp b) op) := by
  by_cases h : op.Savable
  · obtain ⟨bs, hb⟩ := serImpactOp_savable op h
    exact Or.inr ⟨h, bs, hb, reads_impactOp b op bs hb ha⟩
  · exact Or.inl ⟨h, serImpactOp_unsavable op h⟩

example : ∃ bs, serImpactOp (.grr (.gr ⟨1⟩ (.lcpAPGD ⟨2⟩ 3)) (.lcpQL ⟨4⟩)) = .ok bs ∧
    RoundTrip (fun _ => bs) (deImpactOp ⟨true, false⟩) (.grr (.gr ⟨1⟩ (.lcpAPGD ⟨2⟩ 3)) (.lcpQL ⟨4⟩)) :=
  ((C08_impact_operator ⟨true, false⟩ (.grr (.gr ⟨1⟩ (.lcpAPGD ⟨2⟩ 3)) (.lcpQL ⟨4⟩)) ⟨trivial, rfl⟩).resolve_left (fun h => h.1 ⟨trivial, trivial⟩)).2

/-- **C08, friction operators.** -/
theorem C08_friction_operator (b : Build) (op : FrictionOp) (ha : op.Available b) :
    RoundTrip serFrictionOp (deFrictionOp b) op := reads_frictionOp b op ha

example : RoundTrip serFrictionOp (deFrictionOp ⟨true, true⟩) (.smoothMDPIpopt [ascii "ma97", ascii "mumps"] ⟨5⟩) :=
  C08_friction_operator _ _ ⟨rfl, by decide, by decide⟩

/-- **C08, friction solvers other than `grr_friction`.** Either saving ends the program or the saved bytes load to the same
solver. Missing for the full property: `grr_friction`, for which it is false (`C08_grr_friction_lost`). -/
theorem C08_friction_solver_partial (b : Build) (s : FrictionSolver) (ha : s.Available b) (hg : ¬ s.isGRR) :
    (¬ s.Savable ∧ serFrictionSolver s = .exit) ∨
    (s.Savable ∧ ∃ bs, serFrictionSolver s = .ok bs ∧ RoundTrip (fun _ => bs) (deFrictionSolver b) s) := by
  by_cases h : s.Savable
  · obtain ⟨bs, hb⟩ := serFrictionSolver_savable s h
    exact Or.inr ⟨h, bs, hb, reads_frictionSolver b s bs hb ha hg⟩
  · exact Or.inl ⟨h, serFrictionSolver_unsavable s h⟩

/-- **The full C08 is false**: a `grr_friction` solver is saved without complaint and makes every later load exit. -/
theorem C08_grr_friction_lost (b : Build) (i : ImpactOp) (f : FrictionOp) (hi : i.Savable) :
    ∃ bs, serFrictionSolver (.grrFriction i f) = .ok bs ∧ LoadExits (deFrictionSolver b) bs := by
  obtain ⟨bs, hb⟩ := serFrictionSolver_savable (.grrFriction i f) hi
  exact ⟨bs, hb, exits_grrFriction b i f bs hb⟩

example : ∃ bs, serFrictionSolver (.staggered true false (.gr ⟨1⟩ (.lcpAPGD ⟨2⟩ 3)) (.linearMDPQL 8 ⟨4⟩)) = .ok bs ∧
    RoundTrip (fun _ => bs) (deFrictionSolver ⟨true, false⟩)
      (.staggered true false (.gr ⟨1⟩ (.lcpAPGD ⟨2⟩ 3)) (.linearMDPQL 8 ⟨4⟩)) :=
  ((C08_friction_solver_partial ⟨true, false⟩
    (.staggered true false (.gr ⟨1⟩ (.lcpAPGD ⟨2⟩ 3)) (.linearMDPQL 8 ⟨4⟩)) ⟨trivial, rfl⟩ (fun h => h)).resolve_left (fun h => h.1 trivial)).2

/-- **C08, impact maps and impact-friction maps.** -/
theorem C08_impact_map (m : ImpactMapCfg) : RoundTrip serImpactMap deImpactMap m := reads_impactMap m

theorem C08_impact_friction_map (m : ImpactFrictionMapCfg) (h : m.Fits) :
    RoundTrip serImpactFrictionMap deImpactFrictionMap m := reads_impactFrictionMap m h

example : RoundTrip serImpactFrictionMap deImpactFrictionMap (.symplecticEuler [⟨1⟩, ⟨2⟩] ⟨3⟩ 4 true ⟨5⟩ 2) :=
  C08_impact_friction_map _ (show [_, _].length < 9223372036854775808 by decide)

/-- **C08, integrators of the 2D rigid body program.** -/
theorem C08_integrator_rb2d (i : Integrator) (h : i = .verlet ∨ i = .symplecticEuler) : RoundTrip serIntegrator deIntegratorRB2D i :=
  reads_integratorRB2D i h

/-- **C08, integrators of the 2D ball program.** Verlet survives; symplectic Euler is saved without complaint but every later load
exits. -/
theorem C08_integrator_ball2d :
    RoundTrip serIntegrator deIntegratorBall2D .verlet ∧
    LoadExits deIntegratorBall2D (serIntegrator .symplecticEuler) := by
  refine ⟨reads_integratorBall2D, ?_⟩
  have : Exits deIntegratorBall2D (serIntegrator .symplecticEuler ++ []) := by
    refine Exits.bind_right (reads_name _) ?_
    rw [if_neg (by decide)]
    exact Exits.exit _
  rwa [List.append_nil] at this

/-- **C06 and C08 together, the complete snapshot file of the 2D ball program.** Whatever git revision the file was written with, if
saving succeeds then loading restores every component: simulation, iteration, time step, end time, solvers, restitution, friction
coefficient, scripting, and output settings. Missing: penalty forces, `grr_friction`, symplectic Euler (see above). -/
theorem C08_ball2d_file_partial (git : Bytes) (b : Build) (useHdf5 : Bool) (s : Snapshot Ball2D.Sim) (bs : Bytes)
    (hg : git.length < 18446744073709551616) (hs : serSnapshot ball2dFormat git s = .ok bs)
    (hf : s.Fits b useHdf5) (hsim : s.sim.Fits) (hp : ∀ f ∈ s.sim.state.forces, ¬ f.isPenalty)
    (hint : s.integrator = .verlet) (hgrr : ¬ s.frictionSolver.isGRR) (rest : Bytes) :
    (deSnapshot ball2dFormat b useHdf5).run (bs ++ rest) = .ok (s, rest) :=
  reads_snapshot ball2dFormat git b useHdf5 s bs hg hs hf
    (fun simb h => by cases h; exact C06_ball2d_snapshot_partial s.sim hsim hp)
    (by rw [hint]; exact reads_integratorBall2D) hgrr (Or.inl rfl) rest

/-- The same for the 2D rigid body program. Missing: `grr_friction`. -/
theorem C08_rb2d_file_partial (git : Bytes) (b : Build) (useHdf5 : Bool) (s : Snapshot RB2D.Sim) (bs : Bytes)
    (hg : git.length < 18446744073709551616) (hs : serSnapshot rb2dFormat git s = .ok bs)
    (hf : s.Fits b useHdf5) (hsim : s.sim.Fits) (hint : s.integrator = .verlet ∨ s.integrator = .symplecticEuler) (hgrr : ¬ s.frictionSolver.isGRR)
    (rest : Bytes) :
    (deSnapshot rb2dFormat b useHdf5).run (bs ++ rest) = .ok (s, rest) :=
  reads_snapshot rb2dFormat git b useHdf5 s bs hg hs hf (fun simb h => by cases h; exact C07_rb2d_snapshot s.sim hsim)
    (reads_integratorRB2D _ hint) hgrr (Or.inl rfl) rest

/-- A file written by a program with another magic number is reported as a failure, whatever the file contains. -/
theorem C08_foreign_file_rejected {Sim Sim' : Type} (fmt : Format Sim) (fmt' : Format Sim') (git : Bytes) (b : Build) (useHdf5 : Bool)
    (s : Snapshot Sim) (bs : Bytes) (hne : fmt.magic ≠ fmt'.magic) (hs : serSnapshot fmt git s = .ok bs) (rest : Bytes) :
    (deSnapshot fmt' b useHdf5).run (bs ++ rest) = .fail := by
  cases hsb : fmt.serSim s.sim <;> simp only [serSnapshot, hsb, Outcome.bind] at hs <;> try contradiction
  cases hop : serImpactOp s.impactOp <;> simp only [hop] at hs <;> try contradiction
  cases hfs : serFrictionSolver s.frictionSolver <;> simp only [hfs] at hs <;> try contradiction
  cases hs
  rw [List.append_assoc]
  exact (Reads.bind_run (reads_pod fmt.magic) _ _).trans (by rw [if_pos hne]; rfl)

/-- A complete, non-trivial snapshot. -/
def exampleSnapshot {Sim : Type} (sim : Sim) : Snapshot Sim where
  sim := sim
  iteration := 17
  integrator := .verlet
  dtNum := 1
  dtDen := 100
  endTime := ⟨3⟩
  impactOp := .gr ⟨1⟩ (.lcpAPGD ⟨2⟩ 3)
  cor := ⟨4⟩
  frictionSolver := .staggered true false (.lcpAPGD ⟨2⟩ 3) .null
  mu := ⟨5⟩
  impactMap := .impactMap true
  impactFrictionMap := .geometric [⟨1⟩, ⟨2⟩] ⟨3⟩ 4 2
  scriptPath := ascii "assets"
  scriptModule := ascii "script"
  hdf5 := some (ascii "output", true)
  stepsPerSave := 4
  outputFrame := 5
  dtStringPrecision := 2
  saveNumberWidth := 3
  serializeSnapshots := true
  overwriteSnapshots := false

theorem exampleSnapshot_fits {Sim : Type} (sim : Sim) : (exampleSnapshot sim).Fits ⟨false, false⟩ true :=
  ⟨trivial, ⟨trivial, trivial⟩, show [_, _].length < 9223372036854775808 by decide,
    show (ascii "assets").length < 18446744073709551616 by decide,
    show (ascii "script").length < 18446744073709551616 by decide, rfl, fun d f h => by
    simp only [exampleSnapshot, Option.some.injEq, Prod.mk.injEq] at h
    rw [← h.1]; decide⟩

example : ∃ bs, serSnapshot ball2dFormat (ascii "abc123") (exampleSnapshot (exampleBallSim [.gravity ⟨⟨1⟩, ⟨2⟩⟩]))
      = .ok bs ∧ ∀ rest,
    (deSnapshot ball2dFormat ⟨false, false⟩ true).run (bs ++ rest)
      = .ok (exampleSnapshot (exampleBallSim [.gravity ⟨⟨1⟩, ⟨2⟩⟩]), rest) := by
  refine ⟨_, rfl, fun rest => ?_⟩
  refine C08_ball2d_file_partial (ascii "abc123") ⟨false, false⟩ true _ _ (by decide) rfl (exampleSnapshot_fits _)
    (exampleBallSim_fits _ (by decide)) ?_ rfl (fun h => h) rest
  intro f hf
  simp only [exampleSnapshot, List.mem_singleton] at hf
  subst hf
  simp [Ball2D.Force.isPenalty]

example (rest : Bytes) : ∃ bs, serSnapshot rb2dFormat (ascii "abc123") (exampleSnapshot exampleRB2DSim) = .ok bs ∧
    (deSnapshot rb2dFormat ⟨false, false⟩ true).run (bs ++ rest)
      = .ok (exampleSnapshot exampleRB2DSim, rest) :=
  ⟨_, rfl, C08_rb2d_file_partial (ascii "abc123") ⟨false, false⟩ true _ _ (by decide) rfl (exampleSnapshot_fits _)
    exampleRB2DSim_fits (Or.inl rfl) (fun h => h) rest⟩

end Scisim
