import Verif.Lemmas.Disk
import Verif.Props.Snapshot
import Verif.Props.Rational
import Mathlib.Algebra.Order.Floor.Ring
import Mathlib.Data.Rat.Floor
/-!
# C10, C11, C12, C13: runs of the command line programs
-/

namespace Scisim

variable {Sim : Type}

/-! ## A concrete program used in the examples

The simulation is a counter, saved as four bytes; a step adds one; the end is reached at iteration `stop`. -/

def exampleProgram (stop : UInt32) : Program UInt32 where
  format := ⟨1337, fun s => .ok (serPod s), dePod UInt32, deIntegratorRB2D, true⟩
  git := ascii "abc123"
  build := ⟨false, false⟩
  useHdf5 := true
  flowFree i := .ok (i.sim + 1)
  flowImpact _ := .exit
  flowFriction _ := .exit
  reached _ _ _ it := decide (stop ≤ it)

def exampleStart (forces : Bool) (stepsPerSave : UInt32) (overwrite : Bool) : Snapshot UInt32 where
  sim := 1000
  iteration := 0
  integrator := .verlet
  dtNum := 1
  dtDen := 100
  endTime := ⟨3⟩
  impactOp := .null
  cor := ⟨4⟩
  frictionSolver := .null
  mu := ⟨5⟩
  impactMap := .null
  impactFrictionMap := .null
  scriptPath := []
  scriptModule := []
  hdf5 := some (ascii "out", forces)
  stepsPerSave := stepsPerSave
  outputFrame := 0
  dtStringPrecision := 2
  saveNumberWidth := 1
  serializeSnapshots := true
  overwriteSnapshots := overwrite

/-- Globals of `exampleProgram` that loading restores. -/
def ExampleFits (g : Snapshot UInt32) : Prop :=
  g.Fits ⟨false, false⟩ true ∧ g.integrator = .verlet ∧ g.impactOp = .null ∧ g.impactMap = .null ∧ g.frictionSolver = .null ∧
    g.impactFrictionMap = .null

theorem exampleProgram_restorable (stop : UInt32) : Restorable (exampleProgram stop) ExampleFits where
  load g data hg hs := by
    have := reads_snapshot (exampleProgram stop).format (ascii "abc123") ⟨false, false⟩ true g data (by decide) hs hg.1
      (fun simb h => by cases h; exact reads_pod g.sim) (by rw [hg.2.1]; exact reads_integratorRB2D _ (Or.inl rfl))
      (by rw [hg.2.2.2.2.1]; exact fun h => h) (Or.inl rfl) []
    rwa [List.append_nil] at this
  step g s ifm hg hf := by
    obtain ⟨h1, h2, h3, h4, h5, h6⟩ := hg
    have hi : flowStep (exampleProgram stop) g.input = .ok (g.sim + 1, .null) := by
      unfold flowStep
      simp [Snapshot.input, h2, h3, h4, h5, h6, exampleProgram, Outcome.bind]
    rw [hi] at hf
    cases hf
    exact ⟨⟨h1.op, h1.fs, trivial, h1.path, h1.mod, h1.hdf5, h1.dir⟩, h2, h3, h4, h5, rfl⟩
  frame g hg := ⟨⟨hg.1.op, hg.1.fs, hg.1.ifm, hg.1.path, hg.1.mod, hg.1.hdf5, hg.1.dir⟩, hg.2⟩

theorem exampleStart_fits (forces : Bool) (n : UInt32) (o : Bool) : ExampleFits (exampleStart forces n o) :=
  ⟨⟨trivial, trivial, trivial, show (0 : Nat) < 18446744073709551616 by decide,
    show (0 : Nat) < 18446744073709551616 by decide, rfl, fun d f h => by
      simp only [exampleStart, Option.some.injEq, Prod.mk.injEq] at h
      rw [← h.1]; decide⟩, rfl, rfl, rfl, rfl, rfl⟩

/-! ## C10: resuming reproduces the run -/

/-- **C10.** Take any program whose step is a function of the globals, any run of it, however long it is observed, and any snapshot
that the run wrote (except one written by the additional step taken at the end of a run with force output). Loading the snapshot
succeeds, and the run resumed from it writes exactly the files that the original run wrote from that snapshot's frame on — the same
names, the same contents, the same order — and ends the same way. `fuel' + g'.iteration = fuel + g0.iteration` says that both runs are
observed up to the same iteration. Missing for the full property: the snapshot of the additional step, for which it is false
(`C10_extra_frame_after_final_snapshot`). -/
theorem C10_resume_partial (p : Program Sim) (I : Snapshot Sim → Prop) (hI : Restorable p I) (g0 : Snapshot Sim) (h0 : I g0)
    (fuel : Nat) (hb : g0.iteration.toNat + fuel < 4294967296) (f d : Bytes)
    (hs : (f, d) ∈ snapshots (executeSimLoop p fuel g0).1) :
    ∃ g', (loadSnapshot p).run d = .ok (g', []) ∧ f = snapshotFileName g' ∧
      ((g'.outputForces = false ∨ g'.iteration = 0 ∨ p.reached g'.dtNum g'.dtDen g'.endTime (g'.iteration - 1) = false) →
        ∃ pre fuel', fuel' + g'.iteration.toNat = fuel + g0.iteration.toNat ∧
          executeSimLoop p fuel g0 = (pre ++ (resumeRun p fuel' d).1, (resumeRun p fuel' d).2)) := by
  have hmem : Event.snapshot f d ∈ (executeSimLoop p fuel g0).1 := by
    obtain ⟨e, he, h⟩ := List.mem_filterMap.mp hs
    cases e with
    | config f g => simp at h
    | forces f g => simp at h
    | snapshot f' d' =>
      simp only [Option.some.injEq, Prod.mk.injEq] at h
      rw [← h.1, ← h.2]; exact he
  have hres : ∀ (g' : Snapshot Sim), I g' → serSnapshot p.format p.git g' = .ok d → ∀ fuel',
      resumeRun p fuel' d = executeSimLoop p fuel' g' := by
    intro g' hg' hd fuel'
    unfold resumeRun
    rw [hI.load g' d hg' hd]
  by_cases hfirst : Event.snapshot f d ∈ (exportConfig p g0).1
  · obtain ⟨h1, h2⟩ := mem_exportConfig_snapshot hfirst
    refine ⟨g0, hI.load g0 d h0 h1, h2, fun _ => ⟨[], fuel, rfl, ?_⟩⟩
    rw [hres g0 h0 h1, List.nil_append]
  · have hE : executeSimLoop p fuel g0 = match (exportConfig p g0).2 with
        | .ok g' => ((exportConfig p g0).1 ++ (simLoop p fuel g').1, (simLoop p fuel g').2)
        | .fail => ((exportConfig p g0).1, some .fail)
        | .exit => ((exportConfig p g0).1, some .exit)
        | .ub => ((exportConfig p g0).1, some .ub) := rfl
    cases ho : (exportConfig p g0).2 with
    | ok g1 =>
      rw [ho] at hE
      simp only at hE
      rw [hE] at hmem ⊢
      have hm : Event.snapshot f d ∈ (simLoop p fuel g1).1 := (List.mem_append.mp hmem).resolve_left hfirst
      have hg1 : I g1 ∧ g1.iteration = g0.iteration := by
        rcases exportConfig_ok ho with ⟨_, e⟩ | ⟨_, e⟩
        · rw [e]; exact ⟨hI.frame _ h0, rfl⟩
        · rw [e]; exact ⟨h0, rfl⟩
      obtain ⟨g', a1, _, _, _, _, a6, a7, a8, a9⟩ := simLoop_snapshot hI f d fuel g1 hg1.1 (by rw [hg1.2]; exact hb) hm
      refine ⟨g', hI.load g' d a1 a6, a7, fun hc => ?_⟩
      rcases a9 with ⟨fuel', pre, b1, b2⟩ | ⟨b1, b2⟩
      · refine ⟨(exportConfig p g0).1 ++ pre, fuel', by rw [hg1.2] at b1; exact b1, ?_⟩
        rw [b2, hres g' a1 a6]
        simp [List.append_assoc]
      · exfalso
        rcases hc with hc | hc | hc
        · rw [hc] at b1; simp at b1
        · rw [hc] at a8; exact absurd a8 (by decide)
        · rw [hc] at b2; simp at b2
    | fail => rw [ho] at hE; rw [hE] at hmem; exact absurd hmem hfirst
    | exit => rw [ho] at hE; rw [hE] at hmem; exact absurd hmem hfirst
    | ub => rw [ho] at hE; rw [hE] at hmem; exact absurd hmem hfirst

/-- **C10, the interrupted run.** What an interrupted run wrote is the beginning of what the uninterrupted run writes; with
`C10_resume_partial` (the snapshot is one of the uninterrupted run), stopping and resuming yields the uninterrupted run. -/
theorem C10_interrupted_prefix (p : Program Sim) (g0 : Snapshot Sim) (fuel more : Nat) :
    (executeSimLoop p fuel g0).1 <+: (executeSimLoop p (fuel + more) g0).1 := by
  induction more with
  | zero => exact List.prefix_refl _
  | succ more ih =>
    refine ih.trans ?_
    rw [← Nat.add_assoc]
    unfold executeSimLoop
    simp only
    cases ho : (exportConfig p g0).2 with
    | ok g' => exact (List.prefix_append_right_inj _).mpr (simLoop_prefix p _ g')
    | fail => exact List.prefix_refl _
    | exit => exact List.prefix_refl _
    | ub => exact List.prefix_refl _

/-- The 2D ball program: globals within memory limits, with Verlet integration and without penalty forces and `grr_friction`, are
restored by loading, provided steps keep the simulation within memory limits and do not add penalty forces. -/
theorem C10_ball2d_restorable_partial (p : Program Ball2D.Sim) (hm : p.format = ball2dFormat) (hg : p.git.length < 18446744073709551616)
    (hstep : ∀ i r, flowStep p i = .ok r → i.sim.Fits → (∀ f ∈ i.sim.state.forces, ¬ f.isPenalty) → i.impactFrictionMap.Fits →
      r.1.Fits ∧ (∀ f ∈ r.1.state.forces, ¬ f.isPenalty) ∧ r.2.Fits) :
    Restorable p fun g => g.Fits p.build p.useHdf5 ∧ g.sim.Fits ∧ (∀ f ∈ g.sim.state.forces, ¬ f.isPenalty) ∧
      g.integrator = .verlet ∧ ¬ g.frictionSolver.isGRR where
  load g data h hs := by
    obtain ⟨h1, h2, h3, h4, h5⟩ := h
    rw [hm] at hs
    have := C08_ball2d_file_partial p.git p.build p.useHdf5 g data hg hs h1 h2 h3 h4 h5 []
    rw [List.append_nil] at this
    unfold loadSnapshot
    rw [hm]; exact this
  step g s ifm h hf := by
    obtain ⟨h1, h2, h3, h4, h5⟩ := h
    obtain ⟨a, b, c⟩ := hstep _ _ hf h2 h3 h1.ifm
    exact ⟨⟨h1.op, h1.fs, c, h1.path, h1.mod, h1.hdf5, h1.dir⟩, a, b, h4, h5⟩
  frame g h := ⟨⟨h.1.op, h.1.fs, h.1.ifm, h.1.path, h.1.mod, h.1.hdf5, h.1.dir⟩, h.2⟩

/-- The 2D rigid body program, likewise. -/
theorem C10_rb2d_restorable_partial (p : Program RB2D.Sim) (hm : p.format = rb2dFormat) (hg : p.git.length < 18446744073709551616)
    (hstep : ∀ i r, flowStep p i = .ok r → i.sim.Fits → i.impactFrictionMap.Fits → r.1.Fits ∧ r.2.Fits) :
    Restorable p fun g => g.Fits p.build p.useHdf5 ∧ g.sim.Fits ∧ (g.integrator = .verlet ∨ g.integrator = .symplecticEuler) ∧ ¬ g.frictionSolver.isGRR where
  load g data h hs := by
    obtain ⟨h1, h2, h4, h5⟩ := h
    rw [hm] at hs
    have := C08_rb2d_file_partial p.git p.build p.useHdf5 g data hg hs h1 h2 h4 h5 []
    rw [List.append_nil] at this
    unfold loadSnapshot
    rw [hm]; exact this
  step g s ifm h hf := by
    obtain ⟨h1, h2, h4, h5⟩ := h
    obtain ⟨a, c⟩ := hstep _ _ hf h2 h1.ifm
    exact ⟨⟨h1.op, h1.fs, c, h1.path, h1.mod, h1.hdf5, h1.dir⟩, a, h4, h5⟩
  frame g h := ⟨⟨h.1.op, h.1.fs, h.1.ifm, h.1.path, h.1.mod, h.1.hdf5, h.1.dir⟩, h.2⟩

/-- the snapshot that `exampleProgram` writes from given globals -/
def exampleData (g : Snapshot UInt32) : Bytes :=
  match serSnapshot (exampleProgram 0).format (ascii "abc123") g with
  | .ok d => d
  | _ => []

/-- A run with three frames; resuming from the snapshot of the second. -/
example : ∃ pre fuel', fuel' + 2 = 10 + 0 ∧
    executeSimLoop (exampleProgram 5) 10 (exampleStart false 2 false) =
      (pre ++ (resumeRun (exampleProgram 5) fuel' (exampleData { exampleStart false 2 false with
        sim := 1002, iteration := 2, outputFrame := 1 })).1, (resumeRun (exampleProgram 5) fuel' (exampleData
          { exampleStart false 2 false with sim := 1002, iteration := 2, outputFrame := 1 })).2) := by
  have hs : (ascii "out/serial_1.bin", exampleData { exampleStart false 2 false with sim := 1002, iteration := 2, outputFrame := 1 }) ∈
      snapshots (executeSimLoop (exampleProgram 5) 10 (exampleStart false 2 false)).1 := by
    have : snapshots (executeSimLoop (exampleProgram 5) 10 (exampleStart false 2 false)).1 =
        [(ascii "out/serial_0.bin", exampleData (exampleStart false 2 false)),
         (ascii "out/serial_1.bin", exampleData { exampleStart false 2 false with sim := 1002, iteration := 2, outputFrame := 1 }),
         (ascii "out/serial_2.bin", exampleData { exampleStart false 2 false with sim := 1004, iteration := 4, outputFrame := 2 })] := by
      decide +kernel
    rw [this]
    exact List.mem_cons_of_mem _ List.mem_cons_self
  obtain ⟨g', h1, _, h3⟩ := C10_resume_partial (exampleProgram 5) ExampleFits (exampleProgram_restorable 5) _
    (exampleStart_fits false 2 false) 10 (by decide) _ _ hs
  have h4 : (loadSnapshot (exampleProgram 5)).run
      (exampleData { exampleStart false 2 false with sim := 1002, iteration := 2, outputFrame := 1 }) =
      .ok ({ exampleStart false 2 false with sim := 1002, iteration := 2, outputFrame := 1 }, []) := by
    refine (exampleProgram_restorable 5).load _ _ ?_ rfl
    have := exampleStart_fits false 2 false
    exact ⟨⟨this.1.op, this.1.fs, this.1.ifm, this.1.path, this.1.mod, this.1.hdf5, this.1.dir⟩, this.2⟩
  rw [h4] at h1
  cases h1
  exact h3 (Or.inl rfl)

/-- **The full C10 is false when forces are written.** A run of two steps ends, after the additional step, with frame 2; the run
resumed from the snapshot of frame 2 writes a frame 3. -/
theorem C10_extra_frame_after_final_snapshot :
    let run := executeSimLoop (exampleProgram 1) 10 (exampleStart true 1 false)
    ∃ d, (ascii "out/serial_2.bin", d) ∈ snapshots run.1 ∧
      (configs run.1).map Prod.fst = [ascii "out/config_0.h5", ascii "out/config_1.h5", ascii "out/config_2.h5"] ∧
      run.2 ≠ none ∧
      (configs (resumeRun (exampleProgram 1) 10 d).1).map Prod.fst = [ascii "out/config_2.h5", ascii "out/config_3.h5"] := by
  refine ⟨exampleData { exampleStart true 1 false with sim := 1002, iteration := 2, outputFrame := 2 }, ?_, ?_, ?_, ?_⟩ <;>
    decide +kernel

/-! ## C11: frames -/

theorem frameName_dir {dir : Bytes} (h : dir ≠ []) (w m : Nat) :
    frameName dir w m (ascii "config") (ascii "h5") = dir ++ ascii "/config_" ++ padded w m ++ ascii ".h5" := by
  unfold frameName
  rw [if_neg h]
  have e1 : ascii "/config_" = ascii "/" ++ (ascii "config" ++ ascii "_") := by decide
  have e2 : ascii ".h5" = ascii "." ++ ascii "h5" := by decide
  rw [e1, e2]
  simp [List.append_assoc]

/-- **C11, frames.** However long a run has been going (`fuel`) and however it ended, its `j`-th configuration file is that of
frame `j`: its name carries the number `j` and it holds the state after exactly `j * n` steps. So frames have no gaps and no repeats. -/
theorem C11_frames_contiguous (p : Program Sim) (g0 : Snapshot Sim) (h : FreshStart g0) (fuel : Nat) (hf : fuel + 2 < 4294967296)
    (j : Nat) (c : Bytes × Snapshot Sim) (hc : (configs (executeSimLoop p fuel g0).1)[j]? = some c) : IsConfigFrame p g0 j c := by
  have hn := h.steps
  obtain ⟨exps, hx, _⟩ := run_exports (p := p) h fuel hf
  by_cases hd : g0.outputDir = []
  · exfalso
    have : exps.filterMap cfgOf = [] := by
      rw [List.filterMap_eq_nil_iff]
      intro g hg
      obtain ⟨i, hi⟩ := List.mem_iff_getElem?.mp hg
      have hsame := (hx.1 i g hi).same
      have : g.outputDir = g0.outputDir := by rw [hsame]; rfl
      unfold cfgOf
      rw [this, if_pos hd]
    rw [hx.2.1, this] at hc
    simp at hc
  · have hall : ∀ g ∈ exps, cfgOf g = some (configFileName g (ascii "config") (ascii "h5"), g) := by
      intro g hg
      obtain ⟨i, hi⟩ := List.mem_iff_getElem?.mp hg
      have hsame := (hx.1 i g hi).same
      have : g.outputDir = g0.outputDir := by rw [hsame]; rfl
      unfold cfgOf
      rw [if_neg (by rw [this]; exact hd)]
    have hmap : exps.filterMap cfgOf = exps.map fun g => (configFileName g (ascii "config") (ascii "h5"), g) := by
      rw [← List.filterMap_eq_map]
      exact List.filterMap_congr hall
    rw [hx.2.1, hmap, List.getElem?_map] at hc
    obtain ⟨g, hg, rfl⟩ := Option.map_eq_some_iff.mp hc
    have hE := hx.1 j g hg
    rw [Nat.zero_add] at hE
    refine ⟨?_, hE.frame_eq hn, hE.it, hE.traj⟩
    show configFileName g _ _ = _
    rw [configFileName_eq hE.same, hE.frame_eq hn, frameName_dir hd]

/-- **C11, force files.** The `j`-th force file is that of frame `j` and is computed from the state of frame `j`. -/
theorem C11_force_files_contiguous (p : Program Sim) (g0 : Snapshot Sim) (h : FreshStart g0) (fuel : Nat) (hf : fuel + 2 < 4294967296)
    (j : Nat) (c : Bytes × Snapshot Sim) (hc : (forceFiles (executeSimLoop p fuel g0).1)[j]? = some c) : IsForceFrame p g0 j c :=
  run_forces h fuel hf j c hc

/-- **C11, the end.** A run that ended by itself ended at the first step count `N` at which the end time is reached — plus one step if
forces are written — with the state of the trajectory there, and wrote all frames up to there. -/
theorem C11_complete (p : Program Sim) (g0 gf : Snapshot Sim) (h : FreshStart g0) (fuel : Nat) (hf : fuel + 2 < 4294967296)
    (hend : (executeSimLoop p fuel g0).2 = some (.ok gf)) :
    ∃ N, IsEnd p g0 N ∧ gf.iteration.toNat = lastStep g0 N ∧ trajectory p g0.input (lastStep g0 N) = .ok gf.input ∧
      (g0.outputDir ≠ [] →
        (configs (executeSimLoop p fuel g0).1).length = lastStep g0 N / g0.stepsPerSave.toNat + 1) := by
  have hn := h.steps
  obtain ⟨h1, hok⟩ := export_step hn (by omega) (h.atExport (p := p))
  unfold executeSimLoop at hend ⊢
  simp only at hend ⊢
  cases ho : (exportConfig p g0).2 with
  | ok g' =>
    rw [ho] at hend
    simp only at hend ⊢
    obtain ⟨N, _, _, a3, a4, a5, a6⟩ := loop_end hn fuel 0 g' gf (hok g' ho) (by omega) hend
    refine ⟨N, ⟨a3, fun j hj => a4 j (Nat.zero_le j) hj⟩, a5.it, a5.traj, fun hd => ?_⟩
    have := a6 hd
    rw [Nat.zero_div, Nat.zero_add] at this
    rw [configs_append, List.length_append, this, h1, if_pos ⟨Nat.zero_mod _, hd⟩]
    exact Nat.add_comm _ _
  | fail => rw [ho] at hend; simp at hend
  | exit => rw [ho] at hend; simp at hend
  | ub => rw [ho] at hend; simp at hend

/-- **C11, termination.** If the end time is reached at step `N`, steps succeed and the solvers and the states passed through can be saved (if snapshots are
written), the run ends by itself. -/
theorem C11_terminates (p : Program Sim) (g0 : Snapshot Sim) (h : FreshStart g0) (N : Nat) (hN : N + 2 < 4294967296)
    (hreach : p.reached g0.dtNum g0.dtDen g0.endTime (UInt32.ofNat N) = true)
    (hs : g0.serializeSnapshots = true → g0.impactOp.Savable ∧ g0.frictionSolver.Savable ∧
      ∀ j i, trajectory p g0.input j = .ok i → ∃ d, p.format.serSim i.sim = .ok d)
    (ht : ∀ j ≤ N + 1, ∃ i, trajectory p g0.input j = .ok i) :
    ∃ gf, (executeSimLoop p (N + 1) g0).2 = some (.ok gf) := by
  have hn := h.steps
  have h0 : g0.stepsPerSave ≠ 0 := by intro e; rw [e] at hn; exact absurd hn (by decide)
  obtain ⟨_, hok⟩ := export_step hn (by omega) (h.atExport (p := p))
  obtain ⟨g', hg'⟩ := exportConfig_succeeds p g0 h0 (fun e => ⟨(hs e).1, (hs e).2.1, (hs e).2.2 0 _ rfl⟩)
  unfold executeSimLoop
  simp only [hg']
  exact loop_terminates hn hs N hreach ht (N + 1) 0 g' (hok g' hg') (Nat.zero_le _) (by omega) hN

/-- **C11, the end time in exact arithmetic.** If the comparison of the simulated time with the end time `T` is exact, the step count
at which a run ends is `T / dt` rounded up. -/
theorem C11_end_is_ceil (p : Program Sim) (g0 : Snapshot Sim) (dt T : ℚ) (hdt : 0 < dt)
    (hex : ∀ k : ℕ, p.reached g0.dtNum g0.dtDen g0.endTime (UInt32.ofNat k) = decide (T ≤ k * dt)) (N : ℕ) :
    IsEnd p g0 N ↔ N = ⌈T / dt⌉₊ := by
  unfold IsEnd
  rw [hex]
  simp only [decide_eq_true_eq]
  have key : ∀ k : ℕ, T ≤ k * dt ↔ ⌈T / dt⌉₊ ≤ k := by
    intro k
    rw [Nat.ceil_le, div_le_iff₀ hdt]
  constructor
  · rintro ⟨h1, h2⟩
    have h1' := (key N).mp h1
    rcases Nat.lt_or_ge ⌈T / dt⌉₊ N with hlt | hge
    · have := h2 _ hlt
      rw [hex, decide_eq_false_iff_not] at this
      exact absurd ((key _).mpr (Nat.le_refl _)) this
    · omega
  · rintro rfl
    refine ⟨(key _).mpr (Nat.le_refl _), fun j hj => ?_⟩
    rw [hex, decide_eq_false_iff_not]
    intro hc
    have := (key j).mp hc
    omega

/-- **C11, output frequency.** When the program accepts an output frequency (and the number of steps per frame fits in 32 bits), frames
are exactly `1 / frequency` apart in simulated time. -/
theorem C11_output_rate (dt : Rat64) (q : ℚ) (hdt : Represents dt q) (hq : 0 < q) (freq : Nat) (hf : freq ≠ 0) (n : UInt32)
    (h : stepsPerSaveOf dt freq = .ok n) (hfit : 1 / (q * freq) < 4294967296) : (n.toNat : ℚ) * q = 1 / freq := by
  unfold stepsPerSaveOf at h
  rw [if_pos hf] at h
  simp only [Outcome.bind_ok_iff] at h
  obtain ⟨d, hd, r, hr, h⟩ := h
  have hfq : (0 : ℚ) < (freq : ℚ) := by exact_mod_cast Nat.pos_of_ne_zero hf
  have h1 := C01_mulInt hdt hd
  have hne : q * ((freq : ℤ) : ℚ) ≠ 0 := by
    rw [Int.cast_natCast]; positivity
  have h2 := C01_intDiv h1 hne hr
  split at h
  · rename_i hi
    obtain ⟨k, hk⟩ := ((C01_predicates h2).2.2).mp hi
    cases h
    have hnum : r.num = k := by
      rw [h2.1, hk]; simp
    rw [Int.cast_one, Int.cast_natCast] at hk
    have hkpos : (0 : ℚ) < (k : ℚ) := by rw [← hk]; positivity
    have hk0 : 0 < k := by exact_mod_cast hkpos
    have hk1 : k < 4294967296 := by
      rw [hk] at hfit
      exact_mod_cast hfit
    have hto : (UInt32.ofInt r.num).toNat = k.toNat := by
      rw [hnum]
      unfold UInt32.ofInt
      rw [UInt32.toNat_ofNat']
      have : (k % 2 ^ 32).toNat = k.toNat := by
        rw [Int.emod_eq_of_lt (by omega) (by norm_num; omega)]
      rw [this]
      exact Nat.mod_eq_of_lt (by norm_num; omega)
    rw [hto]
    have : ((k.toNat : ℕ) : ℚ) = (k : ℚ) := by
      have h3 : ((k.toNat : ℕ) : ℤ) = k := Int.toNat_of_nonneg (by omega)
      exact_mod_cast congrArg (Int.cast (R := ℚ)) h3
    rw [this, ← hk]
    field_simp
  · simp at h

/-- Conversely, a frequency that does not give a whole number of steps per frame is refused. -/
theorem C11_output_rate_refused (dt : Rat64) (q : ℚ) (hdt : Represents dt q) (hq : 0 < q) (freq : Nat) (hf : freq ≠ 0) (n : UInt32)
    (hno : ¬ ∃ k : ℤ, (k : ℚ) * q * freq = 1) : stepsPerSaveOf dt freq ≠ .ok n := by
  intro h
  unfold stepsPerSaveOf at h
  rw [if_pos hf] at h
  simp only [Outcome.bind_ok_iff] at h
  obtain ⟨d, hd, r, hr, h⟩ := h
  have hfq : (0 : ℚ) < (freq : ℚ) := by exact_mod_cast Nat.pos_of_ne_zero hf
  have h1 := C01_mulInt hdt hd
  have hne : q * ((freq : ℤ) : ℚ) ≠ 0 := by
    rw [Int.cast_natCast]; positivity
  have h2 := C01_intDiv h1 hne hr
  split at h
  · rename_i hi
    obtain ⟨k, hk⟩ := ((C01_predicates h2).2.2).mp hi
    refine hno ⟨k, ?_⟩
    rw [← hk, Int.cast_one, Int.cast_natCast]
    field_simp
  · simp at h

example : stepsPerSaveOf ⟨1, 100⟩ 25 = .ok 4 ∧ stepsPerSaveOf ⟨1, 100⟩ 30 = .fail := by
  constructor <;> decide +kernel

theorem exampleStart_fresh (f : Bool) (o : Bool) : FreshStart (exampleStart f 2 o) := ⟨rfl, rfl, show 0 < (2 : UInt32).toNat by decide⟩

example : (configs (executeSimLoop (exampleProgram 5) 10 (exampleStart true 2 false)).1).map (fun c => (c.1, c.2.sim)) =
    [(ascii "out/config_0.h5", 1000), (ascii "out/config_1.h5", 1002), (ascii "out/config_2.h5", 1004),
     (ascii "out/config_3.h5", 1006)] := by decide +kernel

example (c : Bytes × Snapshot UInt32)
    (hc : (configs (executeSimLoop (exampleProgram 5) 10 (exampleStart true 2 false)).1)[3]? = some c) :
    IsConfigFrame (exampleProgram 5) (exampleStart true 2 false) 3 c :=
  C11_frames_contiguous _ _ (exampleStart_fresh true false) 10 (by decide) 3 c hc

example : ∃ gf, (executeSimLoop (exampleProgram 5) 10 (exampleStart true 2 false)).2 = some (.ok gf) ∧ gf.sim = 1006 :=
  ⟨_, rfl, by decide +kernel⟩

/-! ## C12: file names -/

theorem saveNumberWidthOf_pos (C n : Nat) : 0 < saveNumberWidthOf C n := by
  unfold saveNumberWidthOf
  rw [← decDigits_length, decDigits.eq_def]
  split <;> simp

/-- every frame number of a run fits in the width chosen at start-up -/
theorem frame_fits {C n m : Nat} (hm : m < (C + 1) / n + 1) : computeNumDigits m ≤ saveNumberWidthOf C n := by
  unfold saveNumberWidthOf
  refine computeNumDigits_mono ?_
  have : (C + 1) / n ≤ C / n + 1 := by
    rw [Nat.succ_div]; split <;> omega
  omega

theorem names_pairwise {p : Program Sim} {g0 : Snapshot Sim} (h : FreshStart g0) (fuel : Nat) (hf : fuel + 2 < 4294967296) (C : Nat)
    (hC : p.reached g0.dtNum g0.dtDen g0.endTime (UInt32.ofNat C) = true)
    (hw : g0.saveNumberWidth.toNat = saveNumberWidthOf C g0.stepsPerSave.toNat) :
    ∃ exps, ExportsFrom p g0 0 (executeSimLoop p fuel g0).1 exps ∧
      exps.Pairwise fun a b => SameRun g0 a ∧ SameRun g0 b ∧ ∀ pre ext,
        configFileName a pre ext < configFileName b pre ext ∧
        (configFileName a pre ext).length = (configFileName b pre ext).length := by
  have hn := h.steps
  obtain ⟨exps, hx, hlen⟩ := run_exports (p := p) h fuel hf
  refine ⟨exps, hx, (exports_pairwise hn hx).imp ?_⟩
  rintro a b ⟨h1, h2, h3, h4⟩
  have hl := hlen C ⟨Nat.zero_le C, hC⟩
  have hdb : computeNumDigits b.outputFrame.toNat ≤ g0.saveNumberWidth.toNat := by
    rw [hw]; exact frame_fits (by omega)
  have hda : computeNumDigits a.outputFrame.toNat ≤ g0.saveNumberWidth.toNat :=
    Nat.le_trans (computeNumDigits_mono (by omega)) hdb
  refine ⟨h1, h2, fun pre ext => ?_⟩
  rw [configFileName_eq h1, configFileName_eq h2]
  exact ⟨frameName_lt (by rw [hw]; exact saveNumberWidthOf_pos _ _) h3 hdb, frameName_length hda hdb⟩

/-- **C12, configuration files.** `main` chooses the width of frame numbers from `C`, the end time divided by the time step and rounded
up. If the run's end test holds at step `C` (as it does in exact arithmetic, `C11_end_is_ceil`), then the configuration files of the
run — with or without the additional step for force output — have names of equal length that increase alphabetically (`<` on byte
strings is the lexicographic order) in the order of writing; in particular they differ. -/
theorem C12_config_names (p : Program Sim) (g0 : Snapshot Sim) (h : FreshStart g0) (fuel : Nat) (hf : fuel + 2 < 4294967296) (C : Nat)
    (hC : p.reached g0.dtNum g0.dtDen g0.endTime (UInt32.ofNat C) = true)
    (hw : g0.saveNumberWidth.toNat = saveNumberWidthOf C g0.stepsPerSave.toNat) :
    (configs (executeSimLoop p fuel g0).1).Pairwise fun a b => a.1 < b.1 ∧ a.1.length = b.1.length := by
  obtain ⟨exps, hx, hp⟩ := names_pairwise h fuel hf C hC hw
  rw [hx.2.1]
  refine hp.filterMap _ ?_
  rintro a b ⟨_, _, hab⟩ c hc d hd
  rw [(cfgOf_some hc).1, (cfgOf_some hd).1]
  exact hab _ _

/-- **C12, numbered snapshots.** -/
theorem C12_snapshot_names (p : Program Sim) (g0 : Snapshot Sim) (h : FreshStart g0) (fuel : Nat) (hf : fuel + 2 < 4294967296) (C : Nat)
    (hC : p.reached g0.dtNum g0.dtDen g0.endTime (UInt32.ofNat C) = true)
    (hw : g0.saveNumberWidth.toNat = saveNumberWidthOf C g0.stepsPerSave.toNat) (ho : g0.overwriteSnapshots = false) :
    (snapshots (executeSimLoop p fuel g0).1).Pairwise fun a b => a.1 < b.1 ∧ a.1.length = b.1.length := by
  obtain ⟨exps, hx, hp⟩ := names_pairwise h fuel hf C hC hw
  rw [hx.2.2]
  refine hp.filterMap _ ?_
  rintro a b ⟨h1, h2, hab⟩ c hc d hd
  have ea : snapshotFileName a = configFileName a (ascii "serial") (ascii "bin") := by
    rw [snapshotFileName_eq h1 ho, configFileName_eq h1]
  have eb : snapshotFileName b = configFileName b (ascii "serial") (ascii "bin") := by
    rw [snapshotFileName_eq h2 ho, configFileName_eq h2]
  rw [(snapOf_some hc).1, (snapOf_some hd).1, ea, eb]
  exact hab _ _

/-- **C12, names never collide**, even if the width was computed too small (say because the end time was changed): frames with different
numbers have different names. -/
theorem C12_names_injective (dir pre ext : Bytes) (w m n : Nat) (h : frameName dir w m pre ext = frameName dir w n pre ext) : m = n :=
  frameName_inj h

/-- A run of 150 steps with 2 steps per frame needs two digits. -/
example : saveNumberWidthOf 150 2 = 2 ∧ saveNumberWidthOf 18 2 = 2 ∧ saveNumberWidthOf 5 2 = 1 := by
  constructor
  · decide +kernel
  constructor <;> decide +kernel

example : (configs (executeSimLoop (exampleProgram 5) 10 (exampleStart true 2 false)).1).Pairwise
    fun a b => a.1 < b.1 ∧ a.1.length = b.1.length :=
  C12_config_names _ _ (exampleStart_fresh true false) 10 (by decide) 5 (by decide) (by decide +kernel)

/-! ## C13: crashes -/

theorem ends_bin_ne_h5 (a b : Bytes) : a ++ ascii "bin" ≠ b ++ ascii "h5" := by
  intro h
  have h1 := congrArg List.getLast? h
  rw [List.getLast?_append, List.getLast?_append, show List.getLast? (ascii "bin") = some 110 by decide,
    show List.getLast? (ascii "h5") = some 53 by decide] at h1
  simp at h1

/-- names of snapshots differ from each other and from names of other files -/
theorem run_names_apart {p : Program Sim} {g0 : Snapshot Sim} (h : FreshStart g0) (fuel : Nat) (hf : fuel + 2 < 4294967296)
    (ho : g0.overwriteSnapshots = false) (pre post : List (Event Sim)) (f d : Bytes)
    (hev : (executeSimLoop p fuel g0).1 = pre ++ .snapshot f d :: post) : ∀ e ∈ post, e.file ≠ f := by
  have hn := h.steps
  obtain ⟨exps, hx, _⟩ := run_exports (p := p) h fuel hf
  have hpw : (snapshots (executeSimLoop p fuel g0).1).Pairwise fun a b => a.1 ≠ b.1 := by
    rw [hx.2.2]
    refine (exports_pairwise hn hx).filterMap _ ?_
    rintro a b ⟨h1, h2, h3, _⟩ c hc e he heq
    rw [(snapOf_some hc).1, (snapOf_some he).1, snapshotFileName_eq h1 ho, snapshotFileName_eq h2 ho] at heq
    have := frameName_inj heq
    omega
  have hfname : ∃ a, f = a ++ ascii "bin" := by
    have hm : (f, d) ∈ snapshots (executeSimLoop p fuel g0).1 := by
      rw [hev, snapshots_append]
      exact List.mem_append_right _ List.mem_cons_self
    rw [hx.2.2] at hm
    obtain ⟨g, hg, hs⟩ := List.mem_filterMap.mp hm
    obtain ⟨i, hi⟩ := List.mem_iff_getElem?.mp hg
    have hsame := (hx.1 i g hi).same
    have := (snapOf_some hs).1
    rw [snapshotFileName_eq hsame ho] at this
    exact ⟨_, this.trans (List.append_assoc _ _ _).symm⟩
  intro e he
  cases e with
  | snapshot f' d' =>
    rw [hev, snapshots_append] at hpw
    have hs : snapshots (Event.snapshot f d :: post) = (f, d) :: snapshots post := by simp [snapshots]
    rw [hs] at hpw
    have h2 := (List.pairwise_append.mp hpw).2.1
    rw [List.pairwise_cons] at h2
    exact (h2.1 (f', d') (List.mem_filterMap.mpr ⟨_, he, rfl⟩)).symm
  | config f' g =>
    have hm : (f', g) ∈ configs (executeSimLoop p fuel g0).1 := by
      rw [hev]
      exact List.mem_filterMap.mpr ⟨_, List.mem_append_right _ (List.mem_cons_of_mem _ he), rfl⟩
    rw [hx.2.1] at hm
    obtain ⟨g1, _, hs⟩ := List.mem_filterMap.mp hm
    have hname := congrArg Prod.fst (cfgOf_some hs).1
    obtain ⟨a, rfl⟩ := hfname
    intro hc
    have h5 : ∃ b, configFileName g1 (ascii "config") (ascii "h5") = b ++ ascii "h5" := by
      unfold configFileName
      exact ⟨_, (List.append_assoc _ _ _).symm⟩
    obtain ⟨b, hb⟩ := h5
    exact ends_bin_ne_h5 a b ((hc.symm.trans hname).trans hb)
  | forces f' g =>
    have hm : (f', g) ∈ forceFiles (executeSimLoop p fuel g0).1 := by
      rw [hev]
      exact List.mem_filterMap.mpr ⟨_, List.mem_append_right _ (List.mem_cons_of_mem _ he), rfl⟩
    obtain ⟨i, hi⟩ := List.mem_iff_getElem?.mp hm
    have hname := (run_forces h fuel hf i _ hi).file
    obtain ⟨a, rfl⟩ := hfname
    intro hc
    refine ends_bin_ne_h5 a (g0.outputDir ++ ascii "/forces_" ++ padded g0.saveNumberWidth.toNat i ++ ascii ".")
      ((hc.symm.trans hname).trans ?_)
    rw [show ascii ".h5" = ascii "." ++ ascii "h5" by decide, ← List.append_assoc]

/-- **C13, numbered snapshots of a fresh run.** Kill the program after any number `n` of primitive file operations of the run. Every
snapshot that had been written completely by then is on disk unchanged. `content` is whatever the HDF5 library writes. Missing for
the full property: overwrite mode and resumed runs, for which it is false (below). -/
theorem C13_numbered_survive_partial (p : Program Sim) (g0 : Snapshot Sim) (h : FreshStart g0) (fuel : Nat)
    (hf : fuel + 2 < 4294967296) (ho : g0.overwriteSnapshots = false) (content : Snapshot Sim → Bytes) (disk : Disk)
    (pre post : List (Event Sim)) (f d : Bytes) (hev : (executeSimLoop p fuel g0).1 = pre ++ .snapshot f d :: post) (n : Nat)
    (hn : (diskOpsOf content (pre ++ [.snapshot f d])).length ≤ n) :
    disk.applyAll ((diskOpsOf content (executeSimLoop p fuel g0).1).take n) f = some d := by
  rw [hev]
  exact file_survives content pre post f d disk n hn (run_names_apart h fuel hf ho pre post f d hev)

/-- … and can be loaded. -/
theorem C13_numbered_loadable_partial (p : Program Sim) (I : Snapshot Sim → Prop) (hI : Restorable p I) (g0 : Snapshot Sim) (h0 : I g0)
    (h : FreshStart g0) (fuel : Nat) (hf : fuel + 2 < 4294967296) (ho : g0.overwriteSnapshots = false)
    (content : Snapshot Sim → Bytes) (disk : Disk) (pre post : List (Event Sim)) (f d : Bytes)
    (hev : (executeSimLoop p fuel g0).1 = pre ++ .snapshot f d :: post) (n : Nat)
    (hn : (diskOpsOf content (pre ++ [.snapshot f d])).length ≤ n) :
    ∃ file g', disk.applyAll ((diskOpsOf content (executeSimLoop p fuel g0).1).take n) f = some file ∧
      (loadSnapshot p).run file = .ok (g', []) ∧ f = snapshotFileName g' := by
  have hs : (f, d) ∈ snapshots (executeSimLoop p fuel g0).1 := by
    rw [hev]
    exact List.mem_filterMap.mpr ⟨_, List.mem_append_right _ List.mem_cons_self, rfl⟩
  obtain ⟨g', h1, h2, _⟩ := C10_resume_partial p I hI g0 h0 fuel
    (by rw [h.iteration]; show 0 + fuel < _; omega) f d hs
  exact ⟨d, g', C13_numbered_survive_partial p g0 h fuel hf ho content disk pre post f d hev n hn, h1, h2⟩

/-- An empty file never loads. -/
theorem load_empty (p : Program Sim) : (loadSnapshot p).run [] = .ub := rfl

/-- the disk after `n` operations, when the next event truncates `f` -/
theorem truncated {content : Snapshot Sim → Bytes} (disk : Disk) (pre post : List (Event Sim)) (f d : Bytes) :
    disk.applyAll ((diskOpsOf content (pre ++ .snapshot f d :: post)).take ((diskOpsOf content pre).length + 1)) f = some [] := by
  rw [diskOpsOf_append, List.take_length_add_append, applyAll_append]
  have : (diskOpsOf content (.snapshot f d :: post)).take 1 = [.truncate f] := by
    simp [diskOpsOf, Event.diskOps, writeOps]
  rw [this]
  simp [Disk.applyAll, Disk.apply]

theorem snapshot_names_overwrite {p : Program Sim} {g0 : Snapshot Sim} (h : FreshStart g0) (fuel : Nat) (hf : fuel + 2 < 4294967296)
    (ho : g0.overwriteSnapshots = true) (f d : Bytes) (hm : (f, d) ∈ snapshots (executeSimLoop p fuel g0).1) :
    f = ascii "serial.bin" := by
  obtain ⟨exps, hx, _⟩ := run_exports (p := p) h fuel hf
  rw [hx.2.2] at hm
  obtain ⟨g, hg, hs⟩ := List.mem_filterMap.mp hm
  obtain ⟨i, hi⟩ := List.mem_iff_getElem?.mp hg
  have hsame := (hx.1 i g hi).same
  have hov : g.overwriteSnapshots = true := by rw [hsame]; exact ho
  have := (snapOf_some hs).1
  unfold snapshotFileName at this
  rw [if_pos hov] at this
  exact this

/-- **The full C13 is false in overwrite mode**, of every run: all snapshots go to one file, so at the moment the run begins to write
any snapshot there is no loadable snapshot left, whatever was written before. -/
theorem C13_overwrite_loses_snapshot (p : Program Sim) (g0 : Snapshot Sim) (h : FreshStart g0) (fuel : Nat)
    (hf : fuel + 2 < 4294967296) (ho : g0.overwriteSnapshots = true) (content : Snapshot Sim → Bytes) (disk : Disk)
    (pre post : List (Event Sim)) (f d : Bytes) (hev : (executeSimLoop p fuel g0).1 = pre ++ .snapshot f d :: post) :
    (∀ f' d', (f', d') ∈ snapshots (executeSimLoop p fuel g0).1 → f' = f) ∧
    ∃ n, disk.applyAll ((diskOpsOf content (executeSimLoop p fuel g0).1).take n) f = some [] ∧
      (loadSnapshot p).run [] = .ub := by
  constructor
  · intro f' d' hm
    rw [snapshot_names_overwrite h fuel hf ho f' d' hm]
    refine (snapshot_names_overwrite (p := p) h fuel hf ho f d ?_).symm
    rw [hev]
    exact List.mem_filterMap.mpr ⟨_, List.mem_append_right _ List.mem_cons_self, rfl⟩
  · exact ⟨_, by rw [hev]; exact truncated disk pre post f d, rfl⟩

/-- **The full C13 is false of resumed runs, also in numbered mode**: the resumed program begins by writing, under the same name, the very
snapshot it was resumed from; if it dies there, that snapshot is gone. -/
theorem C13_resume_destroys_snapshot (p : Program Sim) (I : Snapshot Sim → Prop) (hI : Restorable p I) (g : Snapshot Sim) (hg : I g)
    (d : Bytes) (hd : serSnapshot p.format p.git g = .ok d) (hser : g.serializeSnapshots = true)
    (hn : g.stepsPerSave ≠ 0) (hm : g.iteration % g.stepsPerSave = 0) (fuel : Nat) (content : Snapshot Sim → Bytes) (disk : Disk)
    (_hdisk : disk (snapshotFileName g) = some d) :
    ∃ n, disk.applyAll ((diskOpsOf content (resumeRun p fuel d).1).take n) (snapshotFileName g) = some [] := by
  have h1 : resumeRun p fuel d = executeSimLoop p fuel g := by
    unfold resumeRun
    rw [hI.load g d hg hd]
  have h2 : ∃ post, (executeSimLoop p fuel g).1 = cfgEvents g ++ .snapshot (snapshotFileName g) d :: post := by
    have he : exportConfig p g = (cfgEvents g ++ [.snapshot (snapshotFileName g) d], .ok { g with outputFrame := g.outputFrame + 1 }) := by
      unfold exportConfig
      rw [if_neg hn, if_pos hm, if_pos hser, hd]
      rfl
    unfold executeSimLoop
    rw [he]
    exact ⟨_, by simp only [List.append_assoc]; rfl⟩
  obtain ⟨post, h2⟩ := h2
  exact ⟨_, by rw [h1, h2]; exact truncated disk _ post _ d⟩

/-- The second snapshot of the example run is written after the first; at every later crash point the first is there. -/
example (content : Snapshot UInt32 → Bytes) (disk : Disk) : ∃ pre post,
    (executeSimLoop (exampleProgram 5) 10 (exampleStart false 2 false)).1 =
      pre ++ .snapshot (ascii "out/serial_0.bin") (exampleData (exampleStart false 2 false)) :: post ∧ post ≠ [] ∧
    ∀ n, (diskOpsOf content (pre ++ [.snapshot (ascii "out/serial_0.bin") (exampleData (exampleStart false 2 false))])).length ≤ n →
      disk.applyAll ((diskOpsOf content (executeSimLoop (exampleProgram 5) 10 (exampleStart false 2 false)).1).take n)
        (ascii "out/serial_0.bin") = some (exampleData (exampleStart false 2 false)) := by
  have hev : (executeSimLoop (exampleProgram 5) 10 (exampleStart false 2 false)).1 =
      [.config (ascii "out/config_0.h5") (exampleStart false 2 false)] ++
        .snapshot (ascii "out/serial_0.bin") (exampleData (exampleStart false 2 false)) ::
          (executeSimLoop (exampleProgram 5) 10 (exampleStart false 2 false)).1.drop 2 := by decide +kernel
  refine ⟨_, _, hev, by decide +kernel, fun n hn => ?_⟩
  exact C13_numbered_survive_partial _ _ (exampleStart_fresh false false) 10 (by decide) rfl content disk _ _ _ _ hev n hn

end Scisim
