import Verif.Spec.Viewer
/-!
# Lemmas about the interactive programs
-/

namespace Scisim.Viewer

section
variable {St C Mem S : Type} {k : Nat}

/-! ### Which step is taken -/

/-- The map settings of an input make a complete scene -/
def InputComplete {Sim : Type} (p : Program Sim) (i : StepInput Sim) : Prop :=
  Complete p.format.hasImpactMap i.integrator i.impactOp i.impactMap i.frictionSolver i.impactFrictionMap

theorem kind_complete {Sim : Type} {p : Program Sim} {i : StepInput Sim} (h : InputComplete p i) :
    kindOf p.format.hasImpactMap i ≠ .nothing ∧
      ∀ r, runKind p i (kindOf p.format.hasImpactMap i) = .ok r ↔ flowStep p i = .ok r := by
  obtain ⟨hi, hs⟩ := h
  unfold kindOf flowStep
  rcases hs with ⟨h1, h2, h3, h4⟩ | ⟨h1, h2, h3, h4⟩ | ⟨h1, h2, h3, h4⟩
  · simp [hi, h1, h2, h3, h4, runKind]
  · cases hm : p.format.hasImpactMap
    · have h2' : i.impactMap = .null := by
        by_contra hne; have := h2.mp hne; rw [hm] at this; cases this
      simp [hi, h1, h2', h3, h4, runKind]
    · have h2' : i.impactMap ≠ .null := h2.mpr hm
      simp [hi, h1, h2', h3, h4, runKind]
  · simp [hi, h1, h2, h3, h4, runKind]

theorem resetCachedData_null {m : ImpactFrictionMapCfg} : resetCachedData m = .null ↔ m = .null := by cases m <;> simp [resetCachedData]

theorem resetCachedData_idem (m : ImpactFrictionMapCfg) : resetCachedData (resetCachedData m) = resetCachedData m := by cases m <;> rfl

/-- What stays the same of an input -/
structure SameSettings {Sim : Type} (i j : StepInput Sim) : Prop where
  integrator : i.integrator = j.integrator
  dtNum : i.dtNum = j.dtNum
  dtDen : i.dtDen = j.dtDen
  impactOp : i.impactOp = j.impactOp
  cor : i.cor = j.cor
  frictionSolver : i.frictionSolver = j.frictionSolver
  mu : i.mu = j.mu
  impactMap : i.impactMap = j.impactMap
  ifm : resetCachedData i.impactFrictionMap = resetCachedData j.impactFrictionMap
  path : i.scriptPath = j.scriptPath
  module : i.scriptModule = j.scriptModule

theorem SameSettings.refl {Sim : Type} (i : StepInput Sim) : SameSettings i i := ⟨rfl, rfl, rfl, rfl, rfl, rfl, rfl, rfl, rfl, rfl, rfl⟩

theorem SameSettings.trans {Sim : Type} {a b c : StepInput Sim} (h : SameSettings a b) (g : SameSettings b c) : SameSettings a c :=
  ⟨h.1.trans g.1, h.2.trans g.2, h.3.trans g.3, h.4.trans g.4, h.5.trans g.5, h.6.trans g.6, h.7.trans g.7, h.8.trans g.8, h.9.trans g.9, h.10.trans g.10,
    h.11.trans g.11⟩

theorem flowStep_settings {Sim : Type} {p : Program Sim} (hp : KeepsSettings p) {i : StepInput Sim} {s : Sim} {m : ImpactFrictionMapCfg}
    (h : flowStep p i = .ok (s, m)) : resetCachedData m = resetCachedData i.impactFrictionMap := by
  unfold flowStep at h
  split at h
  · cases h; rfl
  · split at h
    · obtain ⟨_, _, h⟩ := Outcome.bind_ok_iff.mp h; cases h; rfl
    · split at h
      · obtain ⟨_, _, h⟩ := Outcome.bind_ok_iff.mp h; cases h; rfl
      · split at h
        · exact hp i s m h
        · cases h

theorem advance_settings {Sim : Type} {p : Program Sim} (hp : KeepsSettings p) {i j : StepInput Sim} (h : advance p i = .ok j) : SameSettings j i := by
  obtain ⟨⟨s, m⟩, h1, h2⟩ := Outcome.bind_ok_iff.mp h
  cases h2
  exact ⟨rfl, rfl, rfl, rfl, rfl, rfl, rfl, rfl, flowStep_settings hp h1, rfl, rfl⟩

theorem trajectory_settings {Sim : Type} {p : Program Sim} (hp : KeepsSettings p) {i : StepInput Sim} :
    ∀ {n j}, trajectory p i n = .ok j → SameSettings j i
  | 0, j, h => by cases h; exact .refl _
  | n + 1, j, h => by
    obtain ⟨x, h1, h2⟩ := Outcome.bind_ok_iff.mp h
    exact (advance_settings hp h2).trans (trajectory_settings hp h1)

theorem SameSettings.complete {Sim : Type} {p : Program Sim} {i j : StepInput Sim} (h : SameSettings i j) (hc : InputComplete p j) : InputComplete p i := by
  have hn : i.impactFrictionMap = .null ↔ j.impactFrictionMap = .null := by
    rw [← resetCachedData_null, h.ifm, resetCachedData_null]
  obtain ⟨h1, h2⟩ := hc
  refine ⟨h.integrator ▸ h1, ?_⟩
  rw [h.impactOp, h.impactMap, h.frictionSolver]
  simpa only [hn, ne_eq] using h2

/-- earlier states of a trajectory exist -/
theorem trajectory_prefix {Sim : Type} {p : Program Sim} {i j : StepInput Sim} {n : Nat} (h : trajectory p i (n + 1) = .ok j) :
    ∃ x, trajectory p i n = .ok x ∧ advance p x = .ok j := Outcome.bind_ok_iff.mp h

/-! ### What the parts of the program leave alone -/

/-- The part of the program that belongs to the simulation -/
structure Core (St C Mem S : Type) (k : Nat) where
  input : StepInput (World St C Mem)
  endTime : F64
  sim0 : St × C
  measure0 : Fin k → S
  drift : Fin k → S
  finished : Bool

def Gui.core (g : Gui St C Mem S k) : Core St C Mem S k := ⟨g.input, g.endTime, g.sim0, g.measure0, g.drift, g.finished⟩

theorem paint_ok {v : Frontend St C Mem S k} {g g' : Gui St C Mem S k} (h : paint v g = .ok g') :
    g' = { g with buffer := some ⟨g.input.sim.state, (v.shapeOf g.input.sim.state).map fun i => g.renderers.getD i 0, if g.hud then some (g.input.iteration, g.drift) else none⟩ } := by
  unfold paint at h
  simp only at h
  by_cases hc : v.bodies g.input.sim.state ≤ g.colors ∧ (∀ i ∈ v.shapeOf g.input.sim.state, ∃ r ∈ g.renderers[i]?, r ∈ v.shapes g.input.sim.state)
  · rw [if_pos hc] at h; exact (Outcome.ok.inj h).symm
  · rw [if_neg hc] at h; cases h

theorem setMovieFps_ok {fps : UInt32} {g g' : Gui St C Mem S k} (h : setMovieFps fps g = .ok g') :
    ∃ n, stepsPerFrameOf ⟨g.input.dtNum.toInt, g.input.dtDen.toInt⟩ fps.toNat = .ok n ∧ g' = { g with fps := fps, outputFrame := 0, stepsPerFrame := n } := by
  obtain ⟨n, h1, h2⟩ := Outcome.bind_ok_iff.mp h
  exact ⟨n, h1, (Outcome.ok.inj h2).symm⟩

theorem setSpin_core {n : UInt32} {g g' : Gui St C Mem S k} (h : setSpin n g = .ok g') :
    g'.core = g.core ∧ g'.simulate = g.simulate ∧ g'.sceneName = g.sceneName := by
  unfold setSpin at h
  simp only at h
  split at h
  · cases h; exact ⟨rfl, rfl, rfl⟩
  · obtain ⟨_, -, rfl⟩ := setMovieFps_ok h
    exact ⟨rfl, rfl, rfl⟩

theorem setMovieDir_core (dir : Bytes) (g : Gui St C Mem S k) :
    (setMovieDir dir g).core = g.core ∧ (setMovieDir dir g).simulate = g.simulate ∧ (setMovieDir dir g).sceneName = g.sceneName := by
  unfold setMovieDir
  simp only
  split <;> exact ⟨rfl, rfl, rfl⟩

theorem uncheckMovie_core (g : Gui St C Mem S k) :
    (uncheckMovie g).core = g.core ∧ (uncheckMovie g).simulate = g.simulate ∧ (uncheckMovie g).sceneName = g.sceneName := by
  unfold uncheckMovie
  split
  · exact setMovieDir_core _ _
  · exact ⟨rfl, rfl, rfl⟩

theorem checkMovie_core (dir : Bytes) (g : Gui St C Mem S k) :
    (checkMovie dir g).core = g.core ∧ (checkMovie dir g).simulate = g.simulate ∧ (checkMovie dir g).sceneName = g.sceneName := by
  unfold checkMovie
  split
  · exact setMovieDir_core _ _
  · exact uncheckMovie_core _

theorem setRender_core (b : Bool) (g : Gui St C Mem S k) :
    (setRender b g).core = g.core ∧ (setRender b g).simulate = g.simulate ∧ (setRender b g).sceneName = g.sceneName := by
  unfold setRender; split <;> exact ⟨rfl, rfl, rfl⟩

theorem setLock_core (b : Bool) (g : Gui St C Mem S k) :
    (setLock b g).core = g.core ∧ (setLock b g).simulate = g.simulate ∧ (setLock b g).sceneName = g.sceneName := by
  unfold setLock; split <;> exact ⟨rfl, rfl, rfl⟩

theorem paint_core {v : Frontend St C Mem S k} {g g' : Gui St C Mem S k} (h : paint v g = .ok g') :
    g'.core = g.core ∧ g'.simulate = g.simulate ∧ g'.sceneName = g.sceneName := by
  rw [paint_ok h]; exact ⟨rfl, rfl, rfl⟩

theorem Core.input_eq {g g' : Gui St C Mem S k} (h : g.core = g'.core) : g.input = g'.input := congrArg Core.input h

theorem refresh_core {v : Frontend St C Mem S k} {g g' : Gui St C Mem S k} (h : refresh v g = .ok g') :
    g'.core = g.core ∧ g'.simulate = g.simulate ∧ g'.sceneName = g.sceneName := by
  unfold refresh at h
  simp only at h
  split at h
  · split at h
    · split at h
      · cases h
      · cases h; exact ⟨rfl, rfl, rfl⟩
    · cases h; exact ⟨rfl, rfl, rfl⟩
  · cases h; exact ⟨rfl, rfl, rfl⟩

theorem show_core {v : Frontend St C Mem S k} {g g' : Gui St C Mem S k} (h : show_ v g = .ok g') :
    g'.core = g.core ∧ g'.simulate = g.simulate ∧ g'.sceneName = g.sceneName := by
  obtain ⟨g1, h1, h2⟩ := Outcome.bind_ok_iff.mp h
  have e1 : g1.core = g.core ∧ g1.simulate = g.simulate ∧ g1.sceneName = g.sceneName := by
    split at h1
    · obtain ⟨b, -, h1⟩ := Outcome.bind_ok_iff.mp h1
      split at h1
      · exact paint_core h1
      · cases h1; exact ⟨rfl, rfl, rfl⟩
    · exact paint_core h1
  have e2 : g'.core = g1.core ∧ g'.simulate = g1.simulate ∧ g'.sceneName = g1.sceneName := by
    split at h2
    · obtain ⟨b, -, h2⟩ := Outcome.bind_ok_iff.mp h2
      cases h2
      split <;> exact ⟨rfl, rfl, rfl⟩
    · cases h2; exact ⟨rfl, rfl, rfl⟩
  exact ⟨e2.1.trans e1.1, e2.2.1.trans e1.2.1, e2.2.2.trans e1.2.2⟩

theorem startCallback_ok {v : Frontend St C Mem S k} {g g' : Gui St C Mem S k} (h : startCallback v g = .ok g') :
    ∃ r, v.startOfSim g.input.scriptModule g.input.sim g.input.iteration = .ok r ∧ g' = { g with input := { g.input with sim := r.1, iteration := r.2 } } := by
  obtain ⟨r, h1, h2⟩ := Outcome.bind_ok_iff.mp h
  exact ⟨r, h1, (Outcome.ok.inj h2).symm⟩

variable [AddCommGroup S] [LinearOrder S]

/-- A step that does not end the program and is not without effect -/
theorem step_ok {v : Frontend St C Mem S k} {g g' : Gui St C Mem S k} (h : step v g = .ok g') (hf : g'.finished = false)
    (hc : InputComplete v.program g.input) :
    v.program.reached g.input.dtNum g.input.dtDen g.endTime g.input.iteration = false ∧
    ∃ x, advance v.program g.input = .ok x ∧
      g'.core = { g.core with input := x, drift := fun i => max (g.drift i) |g.measure0 i - v.measure x.sim.state i| } ∧
      g'.simulate = g.simulate ∧ g'.sceneName = g.sceneName := by
  unfold step at h
  split at h
  · obtain ⟨w, -, h⟩ := Outcome.bind_ok_iff.mp h
    cases h
    exact absurd hf (by simp)
  · rename_i hr
    refine ⟨by simpa using hr, ?_⟩
    obtain ⟨hk, hrun⟩ := kind_complete hc
    rw [if_neg hk] at h
    obtain ⟨r, h1, h⟩ := Outcome.bind_ok_iff.mp h
    obtain ⟨g2, h2, h3⟩ := Outcome.bind_ok_iff.mp h
    have e2 := refresh_core h2
    have e3 := show_core h3
    refine ⟨_, by rw [advance, (hrun r).mp h1]; rfl, e3.1.trans (e2.1.trans rfl), e3.2.1.trans (e2.2.1.trans rfl), e3.2.2.trans (e2.2.2.trans rfl)⟩

omit [LinearOrder S] in
theorem resetWidget_ok {v : Frontend St C Mem S k} {g g' : Gui St C Mem S k} (h : resetWidget v g = .ok g') :
    ∃ r, v.startOfSim g.input.scriptModule ⟨g.sim0.1, g.sim0.2, g.input.sim.memory⟩ 0 = .ok r ∧
      g'.core = { g.core with
        input := { g.input with sim := r.1, impactFrictionMap := resetCachedData g.input.impactFrictionMap, iteration := r.2 }
        measure0 := v.measure g.sim0.1, drift := fun _ => 0 } ∧
      g'.simulate = g.simulate ∧ g'.sceneName = g.sceneName := by
  unfold resetWidget at h
  obtain ⟨g1, h1, h2⟩ := Outcome.bind_ok_iff.mp h
  obtain ⟨r, hr, rfl⟩ := startCallback_ok h1
  have e := paint_core h2
  refine ⟨r, ?_, e.1.trans ?_, e.2.1.trans ?_, e.2.2.trans ?_⟩
  all_goals (revert hr; cases v.resetEndsMovie <;> cases v.resetRecolours <;> intro hr <;> first | exact hr | rfl)

omit [LinearOrder S] in
theorem openWidget_ok {v : Frontend St C Mem S k} {s : Scene St} {render : Bool} {g g' : Gui St C Mem S k} (h : openWidget v s render g = .ok g') :
    ∃ mem r, v.startOfSim s.scriptModule ⟨s.state, if v.clearsCache then v.noCache else g.input.sim.cache, mem⟩ 0 = .ok r ∧
      g'.core = ⟨s.begin r.1 r.2, s.endTime, (s.state, if v.clearsCache then v.noCache else g.input.sim.cache), v.measure s.state, fun _ => 0, g.finished⟩ := by
  obtain ⟨mem, -, h⟩ := Outcome.bind_ok_iff.mp h
  obtain ⟨g1, h1, h⟩ := Outcome.bind_ok_iff.mp h
  obtain ⟨g2, h2, h⟩ := Outcome.bind_ok_iff.mp h
  obtain ⟨n, -, rfl⟩ := setMovieFps_ok h1
  obtain ⟨r, hr, rfl⟩ := startCallback_ok h2
  refine ⟨mem, r, hr, ?_⟩
  split at h
  · exact (paint_core h).1
  · cases h; rfl

omit [LinearOrder S] in
theorem openScene_ok {v : Frontend St C Mem S k} {name : Bytes} {s : Scene St} {render : Bool} {g g' : Gui St C Mem S k}
    (h : openScene v name (.scene s) render g = .ok g') :
    ∃ mem r, v.startOfSim s.scriptModule ⟨s.state, if v.clearsCache then v.noCache else g.input.sim.cache, mem⟩ 0 = .ok r ∧
      g'.core = ⟨s.begin r.1 r.2, s.endTime, (s.state, if v.clearsCache then v.noCache else g.input.sim.cache), v.measure s.state, fun _ => 0, g.finished⟩ ∧
      g'.simulate = false ∧ g'.sceneName = name := by
  obtain ⟨g1, h1, h⟩ := Outcome.bind_ok_iff.mp h
  obtain ⟨mem, r, hr, hc⟩ := openWidget_ok h1
  obtain ⟨g2, h2, h⟩ := Outcome.bind_ok_iff.mp h
  have e2 := setSpin_core h2
  cases h
  have e3 := uncheckMovie_core { setLock g1.lock (setRender g1.renderAtFps g2) with sceneName := name }
  have e4 := setLock_core g1.lock (setRender g1.renderAtFps g2)
  have e5 := setRender_core g1.renderAtFps g2
  refine ⟨mem, r, hr, e3.1.trans (Eq.trans (e4.1.trans (e5.1.trans e2.1)) hc), e3.2.1.trans (e4.2.1.trans (e5.2.1.trans e2.2.1)), e3.2.2⟩

end

end Scisim.Viewer
