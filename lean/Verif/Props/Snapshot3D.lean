import Verif.Lemmas.Snapshot3D
import Verif.Props.CLI
/-!
# C64: simulations of the 3D program survive a snapshot
-/

namespace Scisim

/-- **C64, simulations.** Either some body is a staple and saving ends the program, or saving succeeds and loading gives the simulation
back — configuration, velocities, all four mass matrices, fixed flags, boxes, spheres and meshes with their distance fields, forces,
planes, cylinders, portals, the simulation boundary and the cached impulses — and consumes exactly the bytes saved. -/
theorem C64_rb3d_snapshot (s : RB3D.Sim) (h : s.Fits) :
    (s.HasStaple ∧ RB3D.serSim s = .exit) ∨
    (¬ s.HasStaple ∧ ∃ bs, RB3D.serSim s = .ok bs ∧ RoundTrip (fun _ => bs) RB3D.deSim s) := by
  by_cases hs : s.HasStaple
  · exact Or.inl ⟨hs, RB3D.serSim_exit s hs⟩
  · obtain ⟨bs, hb⟩ := RB3D.serSim_ok s hs
    exact Or.inr ⟨hs, bs, hb, RB3D.reads_sim s h bs hb⟩

/-- Two different simulations are never saved to the same bytes. -/
theorem C64_injective (s t : RB3D.Sim) (hs : s.Fits) (ht : t.Fits) (bs : Bytes) (h1 : RB3D.serSim s = .ok bs)
    (h2 : RB3D.serSim t = .ok bs) : s = t := by
  have a := RB3D.reads_sim s hs bs h1 []
  have b := RB3D.reads_sim t ht bs h2 []
  simpa using a.symm.trans b

/-- **C64, the complete snapshot file.** If saving succeeds then loading restores every component: simulation, iteration, time step, end time,
solvers, restitution, friction coefficient, scripting and output settings. Missing: the exponential Euler integrator, for which it is false
(`C64_exponential_euler_lost`), and `grr_friction` (`C08_grr_friction_lost`). -/
theorem C64_file_partial (git : Bytes) (b : Build) (useHdf5 : Bool) (s : Snapshot RB3D.Sim) (bs : Bytes)
    (hg : git.length < 18446744073709551616) (hs : serSnapshot rb3dFormat git s = .ok bs)
    (hf : s.Fits b useHdf5) (hsim : s.sim.Fits) (hint : s.integrator = .dmv ∨ s.integrator = .splitHam ∨ s.integrator = .null)
    (him : s.impactMap = .null) (hgrr : ¬ s.frictionSolver.isGRR) (rest : Bytes) :
    (deSnapshot rb3dFormat b useHdf5).run (bs ++ rest) = .ok (s, rest) :=
  reads_snapshot rb3dFormat git b useHdf5 s bs hg hs hf (fun simb h => RB3D.reads_sim s.sim hsim simb h)
    (reads_integratorRB3D _ hint) hgrr (Or.inr him) rest

/-- **The full C64 is false**: with the exponential Euler integrator, which scene files can select
(rigidbody3dutils/RigidBody3DSceneParser.cpp:1197-1201), snapshots are written without complaint and none of them can be loaded. -/
theorem C64_exponential_euler_lost (git : Bytes) (b : Build) (useHdf5 : Bool) (s : Snapshot RB3D.Sim)
    (hg : git.length < 18446744073709551616) (hsim : s.sim.Fits) (hst : ¬ s.sim.HasStaple) (h1 : s.impactOp.Savable)
    (h2 : s.frictionSolver.Savable) (hint : s.integrator = .exponentialEuler) :
    ∃ bs, serSnapshot rb3dFormat git s = .ok bs ∧ LoadExits (deSnapshot rb3dFormat b useHdf5) bs := by
  obtain ⟨sb, hsb⟩ := RB3D.serSim_ok s.sim hst
  obtain ⟨op, hop⟩ := serImpactOp_savable _ h1
  obtain ⟨fs, hfs⟩ := serFrictionSolver_savable _ h2
  refine ⟨_, by unfold serSnapshot; show (RB3D.serSim s.sim).bind _ = _; rw [hsb, hop, hfs]; rfl, ?_⟩
  refine Exits.bind_right (reads_pod _) ?_
  rw [if_neg (by simp)]
  refine Exits.bind_right (reads_str _ hg) (Exits.bind_right (RB3D.reads_sim _ hsim _ hsb) (Exits.bind_right (reads_pod _) ?_))
  rw [hint]
  have he : Exits rb3dFormat.deIntegrator (serIntegrator .exponentialEuler) := by
    have := exits_exponentialEuler []
    rwa [List.append_nil] at this
  exact Exits.bind_left he _

/-- **C64 and C10, resuming.** The globals of the 3D program within memory limits, with an integrator that can be loaded and without `grr_friction`, are
restored by loading, provided steps keep the simulation within memory limits. With `C10_resume_partial`: resuming from any snapshot of such a run continues it exactly. -/
theorem C64_restorable_partial (p : Program RB3D.Sim) (hm : p.format = rb3dFormat) (hg : p.git.length < 18446744073709551616)
    (hstep : ∀ i r, flowStep p i = .ok r → i.sim.Fits → i.impactFrictionMap.Fits → r.1.Fits ∧ r.2.Fits) :
    Restorable p fun g => g.Fits p.build p.useHdf5 ∧ g.sim.Fits ∧
      (g.integrator = .dmv ∨ g.integrator = .splitHam ∨ g.integrator = .null) ∧ g.impactMap = .null ∧ ¬ g.frictionSolver.isGRR where
  load g data h hs := by
    obtain ⟨h1, h2, h3, h4, h5⟩ := h
    rw [hm] at hs
    have := C64_file_partial p.git p.build p.useHdf5 g data hg hs h1 h2 h3 h4 h5 []
    rw [List.append_nil] at this
    unfold loadSnapshot
    rw [hm]; exact this
  step g s ifm h hf := by
    obtain ⟨h1, h2, h4, h5⟩ := h
    obtain ⟨a, c⟩ := hstep _ _ hf h2 h1.ifm
    exact ⟨⟨h1.op, h1.fs, c, h1.path, h1.mod, h1.hdf5, h1.dir⟩, a, h4, h5⟩
  frame g h := ⟨⟨h.1.op, h.1.fs, h.1.ifm, h.1.path, h.1.mod, h.1.hdf5, h.1.dir⟩, h.2⟩

/-- **C64, with staples.** A run with periodic snapshots of a scene with a staple ends at the first snapshot: nothing is left to resume from. -/
theorem C64_staple_run_ends (p : Program RB3D.Sim) (hm : p.format = rb3dFormat) (g0 : Snapshot RB3D.Sim) (h : FreshStart g0)
    (hser : g0.serializeSnapshots = true) (hst : g0.sim.HasStaple) (fuel : Nat) :
    (executeSimLoop p fuel g0).2 = some .exit ∧ snapshots (executeSimLoop p fuel g0).1 = [] := by
  have hex : serSnapshot p.format p.git g0 = .exit := by
    unfold serSnapshot
    rw [hm]
    show (RB3D.serSim g0.sim).bind _ = _
    rw [RB3D.serSim_exit _ hst]
    rfl
  have h0 : g0.stepsPerSave ≠ 0 := by
    intro e; have := h.steps; rw [e] at this; exact absurd this (by decide)
  have hmod : g0.iteration % g0.stepsPerSave = 0 := by rw [h.iteration]; simp
  have hev := (export_events (p := p) h0).2
  have hex2 : (exportConfig p g0).2 = .exit := by
    unfold exportConfig
    simp [h0, hmod, hser, hex]
  unfold executeSimLoop
  simp only [hex2]
  refine ⟨trivial, ?_⟩
  rw [hev, if_pos hmod]
  simp [snapOf, hser, hex]

/-- A 3D simulation with a box, a sphere and a mesh of one triangle, gravity, a plane, a cylinder, a portal, a boundary and a cached impulse. -/
def exampleMesh3D : RB3D.Mesh where
  fileName := ascii "bunny.h5"
  verts := ⟨3, 3, [⟨1⟩, ⟨2⟩, ⟨3⟩, ⟨4⟩, ⟨5⟩, ⟨6⟩, ⟨7⟩, ⟨8⟩, ⟨9⟩]⟩
  faces := ⟨3, 1, [0, 1, 2]⟩
  volume := ⟨1⟩
  inertiaOnRho := ⟨⟨1⟩, ⟨2⟩, ⟨3⟩⟩
  centerOfMass := ⟨⟨4⟩, ⟨5⟩, ⟨6⟩⟩
  R := ⟨3, 3, [⟨1⟩, ⟨0⟩, ⟨0⟩, ⟨0⟩, ⟨1⟩, ⟨0⟩, ⟨0⟩, ⟨0⟩, ⟨1⟩]⟩
  samples := ⟨3, 2, [⟨1⟩, ⟨2⟩, ⟨3⟩, ⟨4⟩, ⟨5⟩, ⟨6⟩]⟩
  hullSamples := ⟨3, 1, [⟨1⟩, ⟨2⟩, ⟨3⟩]⟩
  cellDelta := ⟨⟨1⟩, ⟨1⟩, ⟨1⟩⟩
  gridDimensions := ⟨2, 1, 1⟩
  gridOrigin := ⟨⟨0⟩, ⟨0⟩, ⟨0⟩⟩
  signedDistance := [⟨7⟩, ⟨8⟩]
  gridEnd := ⟨⟨1⟩, ⟨0⟩, ⟨0⟩⟩

def exampleRB3DSim (extra : List RB3D.Geo) : RB3D.Sim where
  state :=
    { nbodies := 2, q := [⟨1⟩, ⟨2⟩], v := [⟨3⟩], M0 := exampleSparse, Minv0 := exampleSparse, M := exampleSparse, Minv := exampleSparse,
      fixed := [false, true, false], geometry := extra ++ [.box ⟨⟨1⟩, ⟨2⟩, ⟨3⟩⟩, .sphere ⟨4⟩, .mesh exampleMesh3D], geoIdx := [2, 0, 1],
      forces := [⟨⟨⟨0⟩, ⟨1⟩, ⟨2⟩⟩⟩],
      planes := [⟨⟨⟨1⟩, ⟨2⟩, ⟨3⟩⟩, ⟨⟨4⟩, ⟨5⟩, ⟨6⟩⟩, ⟨⟨7⟩, ⟨8⟩, ⟨9⟩⟩, ⟨⟨10⟩, ⟨11⟩, ⟨12⟩⟩⟩],
      cylinders := [⟨⟨⟨1⟩, ⟨2⟩, ⟨3⟩⟩, ⟨⟨4⟩, ⟨5⟩, ⟨6⟩⟩, ⟨1⟩, ⟨⟨7⟩, ⟨8⟩, ⟨9⟩⟩, ⟨⟨10⟩, ⟨11⟩, ⟨12⟩⟩, ⟨5⟩⟩],
      portals := [⟨⟨⟨⟨1⟩, ⟨2⟩, ⟨3⟩⟩, ⟨⟨4⟩, ⟨5⟩, ⟨6⟩⟩, ⟨⟨7⟩, ⟨8⟩, ⟨9⟩⟩, ⟨⟨10⟩, ⟨11⟩, ⟨12⟩⟩⟩,
        ⟨⟨⟨2⟩, ⟨2⟩, ⟨3⟩⟩, ⟨⟨4⟩, ⟨5⟩, ⟨6⟩⟩, ⟨⟨7⟩, ⟨8⟩, ⟨9⟩⟩, ⟨⟨10⟩, ⟨11⟩, ⟨12⟩⟩⟩, ⟨1, -1, 1⟩⟩],
      boundary := 1, boundaryMin := ⟨⟨1⟩, ⟨2⟩, ⟨3⟩⟩, boundaryMax := ⟨⟨4⟩, ⟨5⟩, ⟨6⟩⟩ }
  cache := ⟨[((0, 1), [⟨7⟩, ⟨8⟩])], [], [((0, 0), [⟨1⟩]), ((0, 1), [⟨2⟩])], []⟩

theorem exampleMesh3D_fits : exampleMesh3D.Fits := by
  refine ⟨by decide, ⟨?_, rfl⟩, ⟨?_, rfl⟩, ⟨?_, rfl, rfl⟩, ⟨?_, rfl⟩, ⟨?_, rfl⟩, by decide⟩ <;>
  · unfold Dense.Wf; decide

theorem exampleRB3DSim_fits (extra : List RB3D.Geo) (h : ∀ g ∈ extra, g.Fits) (hl : extra.length < 1000) : (exampleRB3DSim extra).Fits := by
  refine ⟨⟨show [_, _].length < 9223372036854775808 by decide, show [_].length < 9223372036854775808 by decide,
    exampleSparse_wf, exampleSparse_wf, exampleSparse_wf, exampleSparse_wf,
    show [_, _, _].length < 18446744073709551616 by decide, ?_, ?_, show [_, _, _].length < 18446744073709551616 by decide,
    show [_].length < 18446744073709551616 by decide, show [_].length < 18446744073709551616 by decide,
    show [_].length < 18446744073709551616 by decide, show [_].length < 18446744073709551616 by decide⟩, ?_⟩
  · simp only [exampleRB3DSim, List.length_append, List.length_cons, List.length_nil]; omega
  · intro g hg
    simp only [exampleRB3DSim, List.mem_append, List.mem_cons, List.not_mem_nil, or_false] at hg
    rcases hg with hg | rfl | rfl | rfl
    · exact h g hg
    · trivial
    · trivial
    · exact exampleMesh3D_fits
  · refine ⟨⟨?_, ?_, ?_⟩, ⟨?_, ?_, ?_⟩, ⟨?_, ?_, ?_⟩, ⟨?_, ?_, ?_⟩⟩ <;> simp only [exampleRB3DSim] <;> first | decide | (unfold ImpulseMap.Sorted; decide)

theorem exampleRB3DSim_noStaple : ¬ (exampleRB3DSim []).HasStaple := by
  simp [RB3D.Sim.HasStaple, exampleRB3DSim]

/-- The example is saved and restored. -/
example : ∃ bs, RB3D.serSim (exampleRB3DSim []) = .ok bs ∧ RoundTrip (fun _ => bs) RB3D.deSim (exampleRB3DSim []) :=
  ((C64_rb3d_snapshot _ (exampleRB3DSim_fits [] (by simp) (by simp))).resolve_left fun h => exampleRB3DSim_noStaple h.1).2

/-- With a staple added, saving ends the program. -/
example : RB3D.serSim (exampleRB3DSim [.sphere ⟨1⟩, .staple]) = .exit :=
  ((C64_rb3d_snapshot _ (exampleRB3DSim_fits _ (by intro g hg; simp at hg; rcases hg with rfl | rfl <;> trivial) (by simp))).resolve_right
    fun h => h.1 (by simp [RB3D.Sim.HasStaple, exampleRB3DSim])).2

/-- A complete snapshot file is restored. -/
example (rest : Bytes) : ∃ bs, serSnapshot rb3dFormat (ascii "abc123")
      { exampleSnapshot (exampleRB3DSim []) with integrator := .splitHam, impactMap := .null } = .ok bs ∧
    (deSnapshot rb3dFormat ⟨false, false⟩ true).run (bs ++ rest)
      = .ok ({ exampleSnapshot (exampleRB3DSim []) with integrator := .splitHam, impactMap := .null }, rest) := by
  obtain ⟨bs, hb⟩ := serSnapshot_savable rb3dFormat (ascii "abc123")
    { exampleSnapshot (exampleRB3DSim []) with integrator := .splitHam, impactMap := .null } trivial trivial
    (RB3D.serSim_ok _ exampleRB3DSim_noStaple)
  have h := exampleSnapshot_fits (exampleRB3DSim [])
  exact ⟨bs, hb, C64_file_partial (ascii "abc123") ⟨false, false⟩ true _ _ (by decide) hb
    ⟨h.op, h.fs, h.ifm, h.path, h.mod, h.hdf5, h.dir⟩
    (exampleRB3DSim_fits [] (by simp) (by simp)) (Or.inr (Or.inl rfl)) rfl (fun h => h) rest⟩

/-- With exponential Euler it is not. -/
example : ∃ bs, serSnapshot rb3dFormat (ascii "abc123") { exampleSnapshot (exampleRB3DSim []) with integrator := .exponentialEuler } = .ok bs ∧
    LoadExits (deSnapshot rb3dFormat ⟨false, false⟩ true) bs :=
  C64_exponential_euler_lost _ _ _ _ (by decide) (exampleRB3DSim_fits [] (by simp) (by simp)) exampleRB3DSim_noStaple trivial trivial rfl

end Scisim
