import Verif.Props.Viewer
/-!
# C78: controls, frame rate and pictures of the interactive programs
-/

namespace Scisim.Viewer

section
variable {St C Mem S : Type} {k : Nat} [AddCommGroup S] [LinearOrder S]

/-! ## Controls -/

/-- The members that concern the controls -/
def Gui.panel (g : Gui St C Mem S k) : Bool × Bool × Bool × Bool × Bool × Bytes × UInt32 × UInt32 × UInt32 :=
  (g.renderBox, g.renderAtFps, g.lockBox, g.lock, g.movieBox, g.movieDir, g.spin, g.fps, g.stepsPerFrame)

omit [AddCommGroup S] [LinearOrder S] in
theorem Consistent.of_panel {g g' : Gui St C Mem S k} (h : g'.panel = g.panel) (hg : Consistent g) : Consistent g' := by
  simp only [Gui.panel, Prod.mk.injEq] at h
  obtain ⟨h1, h2, h3, h4, h5, h6, h7, h8, h9⟩ := h
  exact ⟨by rw [h1, h2, hg.render], by rw [h3, h4, hg.lock], by rw [h5, h6, hg.movie], by rw [h7, h8, hg.fps], by rw [h7]; exact hg.range⟩

omit [AddCommGroup S] [LinearOrder S] in
theorem Paced.of_panel {g g' : Gui St C Mem S k} (h : g'.panel = g.panel) (hd : g'.input.dtNum = g.input.dtNum ∧ g'.input.dtDen = g.input.dtDen) (hg : Paced g) : Paced g' := by
  simp only [Gui.panel, Prod.mk.injEq] at h
  unfold Paced at hg ⊢
  rw [h.2.2.2.2.2.2.2.1, h.2.2.2.2.2.2.2.2, hd.1, hd.2, hg]

omit [AddCommGroup S] [LinearOrder S] in
theorem paint_panel {v : Frontend St C Mem S k} {g g' : Gui St C Mem S k} (h : paint v g = .ok g') : g'.panel = g.panel := by rw [paint_ok h]; rfl

omit [AddCommGroup S] [LinearOrder S] in
theorem show_panel {v : Frontend St C Mem S k} {g g' : Gui St C Mem S k} (h : show_ v g = .ok g') : g'.panel = g.panel := by
  obtain ⟨g1, h1, h2⟩ := Outcome.bind_ok_iff.mp h
  have e1 : g1.panel = g.panel := by
    split at h1
    · obtain ⟨b, -, h1⟩ := Outcome.bind_ok_iff.mp h1
      split at h1
      · exact paint_panel h1
      · cases h1; rfl
    · exact paint_panel h1
  rw [← e1]
  split at h2
  · obtain ⟨b, -, h2⟩ := Outcome.bind_ok_iff.mp h2
    cases h2
    split <;> rfl
  · cases h2; rfl

omit [AddCommGroup S] [LinearOrder S] in
theorem refresh_panel {v : Frontend St C Mem S k} {g g' : Gui St C Mem S k} (h : refresh v g = .ok g') : g'.panel = g.panel := by
  unfold refresh at h
  simp only at h
  split at h
  · split at h
    · split at h
      · cases h
      · cases h; rfl
    · cases h; rfl
  · cases h; rfl

theorem step_panel {v : Frontend St C Mem S k} {g g' : Gui St C Mem S k} (h : step v g = .ok g') :
    g'.panel = g.panel ∧ g'.input.dtNum = g.input.dtNum ∧ g'.input.dtDen = g.input.dtDen := by
  unfold step at h
  split at h
  · obtain ⟨w, -, h⟩ := Outcome.bind_ok_iff.mp h
    cases h; exact ⟨rfl, rfl, rfl⟩
  · split at h
    · cases h; exact ⟨rfl, rfl, rfl⟩
    · obtain ⟨r, -, h⟩ := Outcome.bind_ok_iff.mp h
      obtain ⟨g2, h2, h3⟩ := Outcome.bind_ok_iff.mp h
      have e := Core.input_eq ((show_core h3).1.trans (refresh_core h2).1)
      refine ⟨(show_panel h3).trans ((refresh_panel h2).trans rfl), by rw [e], by rw [e]⟩

omit [AddCommGroup S] [LinearOrder S] in
theorem uncheckMovie_consistent {g : Gui St C Mem S k} (h1 : g.renderBox = g.renderAtFps) (h2 : g.lockBox = g.lock) (h3 : g.movieBox = false → g.movieDir = [])
    (h4 : g.spin = g.fps) (h5 : 1 ≤ g.spin ∧ g.spin ≤ 1000) : Consistent (uncheckMovie g) := by
  unfold uncheckMovie
  split
  · exact ⟨h1, h2, by simp [setMovieDir], h4, h5⟩
  · rename_i hb
    have hb : g.movieBox = false := by simpa using hb
    exact ⟨h1, h2, by simp [hb, h3 hb], h4, h5⟩

omit [AddCommGroup S] [LinearOrder S] in
theorem uncheckMovie_paced {g : Gui St C Mem S k} : Paced (uncheckMovie g) ↔ Paced g := by
  unfold uncheckMovie
  split
  · unfold setMovieDir; exact Iff.rfl
  · exact Iff.rfl

omit [AddCommGroup S] [LinearOrder S] in
theorem clamp_toNat (n : UInt32) : (max 1 (min 1000 n)).toNat = max 1 (min 1000 n.toNat) := by
  have hmax : ∀ a b : UInt32, max a b = if a ≤ b then b else a := fun _ _ => rfl
  have hmin : ∀ a b : UInt32, min a b = if a ≤ b then a else b := fun _ _ => rfl
  have h1 : (1 : UInt32).toNat = 1 := rfl
  have h2 : (1000 : UInt32).toNat = 1000 := rfl
  rw [hmax, hmin]
  simp only [UInt32.le_iff_toNat_le]
  split <;> split <;> simp_all <;> omega

omit [AddCommGroup S] [LinearOrder S] in
theorem clamp_range (n : UInt32) : 1 ≤ max 1 (min 1000 n) ∧ max 1 (min 1000 n) ≤ 1000 := by
  have h1 : (1 : UInt32).toNat = 1 := rfl
  have h2 : (1000 : UInt32).toNat = 1000 := rfl
  simp only [UInt32.le_iff_toNat_le, clamp_toNat, h1, h2]
  omega

omit [AddCommGroup S] [LinearOrder S] in
theorem clamp_eq {n : UInt32} (h : 1 ≤ n ∧ n ≤ 1000) : max 1 (min 1000 n) = n := by
  have h1 : (1 : UInt32).toNat = 1 := rfl
  have h2 : (1000 : UInt32).toNat = 1000 := rfl
  simp only [UInt32.le_iff_toNat_le, h1, h2] at h
  rw [← UInt32.toNat_inj, clamp_toNat]
  omega

omit [LinearOrder S] in
/-- Opening makes the controls agree with the scene's settings. -/
theorem openScene_consistent {v : Frontend St C Mem S k} {name : Bytes} {f : File St} {render : Bool} {g g' : Gui St C Mem S k}
    (hg : Consistent g) (hgp : Paced g) (hf : f.FpsInRange) (h : openScene v name f render g = .ok g') : Consistent g' ∧ Paced g' := by
  cases f with
  | missing => cases h; exact ⟨hg, hgp⟩
  | refused => cases h; exact ⟨hg, hgp⟩
  | scene s =>
    obtain ⟨g1, h1, h⟩ := Outcome.bind_ok_iff.mp h
    obtain ⟨g2, h2, h⟩ := Outcome.bind_ok_iff.mp h
    have hfin : uncheckMovie { setLock g1.lock (setRender g1.renderAtFps g2) with sceneName := name } = g' := Outcome.ok.inj h
    -- the widget
    obtain ⟨mem, -, h1⟩ := Outcome.bind_ok_iff.mp h1
    obtain ⟨ga, ha, h1⟩ := Outcome.bind_ok_iff.mp h1
    obtain ⟨gb, hb, h1⟩ := Outcome.bind_ok_iff.mp h1
    obtain ⟨n, hn, rfl⟩ := setMovieFps_ok ha
    obtain ⟨r, hr, rfl⟩ := startCallback_ok hb
    have hd : g1.input.dtNum = s.dtNum ∧ g1.input.dtDen = s.dtDen := by
      split at h1
      · rw [paint_ok h1]; exact ⟨rfl, rfl⟩
      · cases h1; exact ⟨rfl, rfl⟩
    have hp1 : g1.spin = g.spin ∧ g1.fps = (s.display.map Display.fps).getD g.fps ∧ g1.movieBox = g.movieBox ∧
        (g1.movieDir = g.movieDir ∨ g1.movieDir = []) ∧ g1.stepsPerFrame = n := by
      have hm : (if v.openClearsMovie = true then ([] : Bytes) else g.movieDir) = g.movieDir ∨ (if v.openClearsMovie = true then ([] : Bytes) else g.movieDir) = [] := by
        split
        · exact Or.inr rfl
        · exact Or.inl rfl
      split at h1
      · rw [paint_ok h1]; exact ⟨rfl, rfl, rfl, hm, rfl⟩
      · cases h1; exact ⟨rfl, rfl, rfl, hm, rfl⟩
    obtain ⟨p1, p2, p3, p4, p5⟩ := hp1
    have hn : stepsPerFrameOf ⟨s.dtNum.toInt, s.dtDen.toInt⟩ g1.fps.toNat = .ok n := by rw [p2]; exact hn
    have hr1 : 1 ≤ g1.fps ∧ g1.fps ≤ 1000 := by
      rw [p2]
      cases hdis : s.display with
      | none => show 1 ≤ g.fps ∧ g.fps ≤ 1000; rw [← hg.fps]; exact hg.range
      | some d => exact hf d hdis
    have hg2 : g2.spin = g1.fps ∧ g2.fps = g1.fps ∧ g2.movieBox = g1.movieBox ∧ g2.movieDir = g1.movieDir ∧ g2.stepsPerFrame = n ∧
        g2.input.dtNum = s.dtNum ∧ g2.input.dtDen = s.dtDen := by
      unfold setSpin at h2
      simp only at h2
      rw [clamp_eq hr1] at h2
      split at h2
      · rename_i hs
        cases h2
        exact ⟨hs.symm, rfl, rfl, rfl, p5, hd⟩
      · obtain ⟨n', hn', rfl⟩ := setMovieFps_ok h2
        refine ⟨rfl, rfl, rfl, rfl, ?_, hd⟩
        have hn'' : stepsPerFrameOf ⟨g1.input.dtNum.toInt, g1.input.dtDen.toInt⟩ g1.fps.toNat = .ok n' := hn'
        rw [hd.1, hd.2, hn] at hn''
        exact (Outcome.ok.inj hn'').symm
    obtain ⟨q1, q2, q3, q4, q5, q6, q7⟩ := hg2
    rw [← hfin]
    have hmovie : g2.movieBox = false → g2.movieDir = [] := by
      intro hb
      rw [q3, p3] at hb
      rw [q4]
      rcases p4 with p4 | p4
      · rw [p4]
        by_contra hne
        rw [hg.movie.mpr hne] at hb; cases hb
      · exact p4
    have hrl : g2.renderAtFps = g1.renderAtFps ∧ g2.lock = g1.lock := by
      unfold setSpin at h2
      simp only at h2
      split at h2
      · cases h2; exact ⟨rfl, rfl⟩
      · obtain ⟨n', -, rfl⟩ := setMovieFps_ok h2; exact ⟨rfl, rfl⟩
    constructor
    · apply uncheckMovie_consistent
      · unfold setLock setRender
        split <;> split <;> simp_all
      · unfold setLock setRender
        split <;> split <;> simp_all
      · unfold setLock setRender
        split <;> split <;> exact hmovie
      · unfold setLock setRender
        split <;> split <;> exact q1.trans q2.symm
      · unfold setLock setRender
        split <;> split <;> (show 1 ≤ g2.spin ∧ g2.spin ≤ 1000; rw [q1]; exact hr1)
    · rw [uncheckMovie_paced]
      have : Paced g2 := by unfold Paced; rw [q6, q7, q2, q5]; exact hn
      unfold setLock setRender
      split <;> split <;> exact this

/-- **C78, controls.** Whatever the user does, the boxes Render at FPS, Lock Camera and Export Movie and the frame rate in the window show the settings in force, and the number of steps
between frames is the one for the frame rate shown and the time step of the scene — if the scenes' frame rates are ones that can be set by hand (1 to 1000). -/
theorem C78_controls_partial (v : Frontend St C Mem S k) (e : Input St) (g g' : Gui St C Mem S k) (he : e.FpsInRange) (hg : Consistent g) (hgp : Paced g)
    (h : handle v e g = .ok g') : Consistent g' ∧ Paced g' := by
  rw [handle.eq_def] at h
  by_cases hfin : g.finished = true
  · rw [if_pos hfin] at h; cases h; exact ⟨hg, hgp⟩
  rw [if_neg hfin] at h
  have hpanel : ∀ {y : Gui St C Mem S k}, y.panel = g.panel → y.input.dtNum = g.input.dtNum ∧ y.input.dtDen = g.input.dtDen → Consistent y ∧ Paced y :=
    fun h1 h2 => ⟨hg.of_panel h1, hgp.of_panel h1 h2⟩
  have hun : ∀ b : Bool, g.movieBox = b → Consistent (uncheckMovie g) ∧ Paced (uncheckMovie g) := by
    intro b _
    refine ⟨uncheckMovie_consistent hg.render hg.lock ?_ hg.fps hg.range, uncheckMovie_paced.mpr hgp⟩
    intro hb
    by_contra hne
    rw [hg.movie.mpr hne] at hb; cases hb
  have hcheck : ∀ (y : Gui St C Mem S k) (dir : Bytes), Consistent y → Paced y → Consistent (checkMovie dir y) ∧ Paced (checkMovie dir y) := by
    intro y dir hy hyp
    unfold checkMovie
    split
    · rename_i hd
      unfold setMovieDir
      simp only [if_pos hd]
      exact ⟨⟨hy.render, hy.lock, by simp [saveFrame, saveScreenshot, hd], hy.fps, hy.range⟩, hyp⟩
    · exact ⟨uncheckMovie_consistent hy.render hy.lock (by simp) hy.fps hy.range, uncheckMovie_paced.mpr hyp⟩
  cases e with
  | step => have e := step_panel h; exact hpanel e.1 e.2
  | idle =>
    simp only at h
    split at h
    · have e := step_panel h; exact hpanel e.1 e.2
    · cases h; exact ⟨hg, hgp⟩
  | toggleSimulate => cases h; exact hpanel rfl ⟨rfl, rfl⟩
  | reset =>
    obtain ⟨y, h1, h2⟩ := Outcome.bind_ok_iff.mp h
    unfold resetWidget at h1
    obtain ⟨z, hz, h1⟩ := Outcome.bind_ok_iff.mp h1
    obtain ⟨r, -, rfl⟩ := startCallback_ok hz
    have e1 := paint_ok h1
    cases h2
    cases hv : v.resetEndsMovie with
    | true =>
      simp only [hv, if_true] at e1 ⊢
      cases hr : v.resetRecolours <;> simp only [hr, if_true, Bool.false_eq_true, if_false] at e1 <;> rw [e1] <;>
        exact ⟨uncheckMovie_consistent hg.render hg.lock (fun _ => rfl) hg.fps hg.range, uncheckMovie_paced.mpr hgp⟩
    | false =>
      simp only [hv, Bool.false_eq_true, if_false] at e1 ⊢
      cases hr : v.resetRecolours <;> simp only [hr, if_true, Bool.false_eq_true, if_false] at e1 <;> rw [e1] <;> exact hpanel rfl ⟨rfl, rfl⟩
  | openFile name f => exact openScene_consistent hg hgp he h
  | reload f =>
    simp only at h
    split at h
    · cases h; exact ⟨hg, hgp⟩
    · exact openScene_consistent hg hgp he h
  | toggleRender =>
    cases h
    unfold setRender
    split
    · exact ⟨hg, hgp⟩
    · exact ⟨⟨rfl, hg.lock, hg.movie, hg.fps, hg.range⟩, hgp⟩
  | toggleLock =>
    cases h
    unfold setLock
    split
    · exact ⟨hg, hgp⟩
    · exact ⟨⟨hg.render, rfl, hg.movie, hg.fps, hg.range⟩, hgp⟩
  | setFps n =>
    have h : setSpin n g = .ok g' := h
    unfold setSpin at h
    simp only at h
    split at h
    · cases h; exact ⟨hg, hgp⟩
    · obtain ⟨n', hn', rfl⟩ := setMovieFps_ok h
      exact ⟨⟨hg.render, hg.lock, hg.movie, rfl, clamp_range n⟩, hn'⟩
  | toggleMovie dir =>
    cases h
    split
    · exact hun _ rfl
    · exact hcheck g dir hg hgp
  | exportMovie dir => cases h; obtain ⟨h1, h2⟩ := hun _ rfl; exact hcheck _ dir h1 h2
  | exportImage file => cases h; split <;> exact hpanel rfl ⟨rfl, rfl⟩
  | toggleHud => rw [paint_ok h]; exact hpanel rfl ⟨rfl, rfl⟩
  | expose => rw [paint_ok h]; exact hpanel rfl ⟨rfl, rfl⟩

/-! ## Pictures -/

/-- A painted state: enough colours, and a renderer for each geometry; and so it will be after a reset. -/
structure Drawable (v : Frontend St C Mem S k) (g : Gui St C Mem S k) : Prop where
  colors : v.bodies g.input.sim.state ≤ g.colors
  renderers : g.renderers = v.shapes g.input.sim.state
  formed : WellFormed v g.input.sim.state
  formed0 : WellFormed v g.sim0.1
  reset : v.resetRecolours = true ∨ (v.bodies g.sim0.1 ≤ g.colors ∧ g.renderers = v.shapes g.sim0.1)

omit [AddCommGroup S] [LinearOrder S] in
theorem Drawable.of_eq {v : Frontend St C Mem S k} {g g' : Gui St C Mem S k} (hg : Drawable v g) (h1 : g'.core = g.core) (h2 : g'.colors = g.colors)
    (h3 : g'.renderers = g.renderers) : Drawable v g' := by
  have hi := Core.input_eq h1
  have hs : g'.sim0 = g.sim0 := congrArg Core.sim0 h1
  exact ⟨by rw [hi, h2]; exact hg.colors, by rw [hi, h3]; exact hg.renderers, by rw [hi]; exact hg.formed, by rw [hs]; exact hg.formed0, by rw [hs, h2, h3]; exact hg.reset⟩

omit [AddCommGroup S] [LinearOrder S] in
theorem paint_drawable {v : Frontend St C Mem S k} {g : Gui St C Mem S k} (hg : Drawable v g) : ∃ g', paint v g = .ok g' ∧ Current v g' := by
  have hc : v.bodies g.input.sim.state ≤ g.colors ∧ (∀ i ∈ v.shapeOf g.input.sim.state, ∃ r ∈ g.renderers[i]?, r ∈ v.shapes g.input.sim.state) := by
    refine ⟨hg.colors, fun i hi => ?_⟩
    have hlt := hg.formed i hi
    rw [hg.renderers]
    exact ⟨(v.shapes g.input.sim.state)[i], by simp [hlt], List.getElem_mem hlt⟩
  refine ⟨_, by unfold paint; exact if_pos hc, _, rfl, rfl, ?_, rfl⟩
  simp only [hg.renderers]

omit [AddCommGroup S] [LinearOrder S] in
theorem paint_ne_ub {v : Frontend St C Mem S k} {g : Gui St C Mem S k} (hg : Drawable v g) : paint v g ≠ .ub := by
  obtain ⟨g', h, -⟩ := paint_drawable hg
  rw [h]; exact (nomatch ·)

omit [AddCommGroup S] [LinearOrder S] in
theorem paint_current {v : Frontend St C Mem S k} {g g' : Gui St C Mem S k} (hg : Drawable v g) (h : paint v g = .ok g') : Current v g' ∧ Drawable v g' := by
  obtain ⟨y, hy, hc⟩ := paint_drawable hg
  rw [h] at hy
  cases hy
  refine ⟨hc, ?_⟩
  rw [paint_ok h]
  exact hg.of_eq rfl rfl rfl

omit [AddCommGroup S] [LinearOrder S] in
theorem Current.of_eq {v : Frontend St C Mem S k} {g g' : Gui St C Mem S k} (hg : Current v g) (h1 : g'.core = g.core) (h2 : g'.buffer = g.buffer) (h3 : g'.hud = g.hud) :
    Current v g' := by
  have hi := Core.input_eq h1
  have hd : g'.drift = g.drift := congrArg Core.drift h1
  unfold Current at hg ⊢
  rw [hi, h2, h3, hd]; exact hg

theorem bind_ne_ub {α β : Type} {a : Outcome α} {f : α → Outcome β} (h1 : a ≠ .ub) (h2 : ∀ x, a = .ok x → f x ≠ .ub) : a.bind f ≠ .ub := by
  cases a with
  | ok x => exact h2 x rfl
  | fail => exact (nomatch ·)
  | exit => exact (nomatch ·)
  | ub => exact absurd rfl h1

omit [AddCommGroup S] [LinearOrder S] in
/-- What is computed by a step is `flowStep`, whenever it is not nothing or an error. -/
theorem runKind_flowStep {Sim : Type} {p : Program Sim} {i : StepInput Sim} {r : Sim × ImpactFrictionMapCfg} (hc : InputComplete p i)
    (h : runKind p i (kindOf p.format.hasImpactMap i) = .ok r) : flowStep p i = .ok r := ((kind_complete hc).2 r).mp h

omit [AddCommGroup S] [LinearOrder S] in
theorem refresh_drawable {v : Frontend St C Mem S k} (ht : Tame v) {i : StepInput (World St C Mem)} {r : World St C Mem × ImpactFrictionMapCfg}
    (hr : flowStep v.program i = .ok r) {g0 g : Gui St C Mem S k} (hg0 : Drawable v g0) (hi : g0.input = i) (hin : g.input.sim = r.1) (hs : g.sim0 = g0.sim0)
    (hcol : g.colors = g0.colors) (hren : g.renderers = g0.renderers) :
    refresh v g ≠ .ub ∧ ∀ g', refresh v g = .ok g' → Drawable v g' := by
  obtain ⟨t1, t2, t3⟩ := ht.step i r hr (by rw [← hi]; exact hg0.formed)
  have hold : g0.renderers = v.shapes i.sim.state := by rw [hg0.renderers, hi]
  have hsame : v.stepRecolours = false ∨ (v.shapes i.sim.state).length = (v.shapes r.1.state).length → v.shapes r.1.state = v.shapes i.sim.state := by
    intro h
    rcases t3 with t3 | ⟨t3, t4, -⟩
    · exact t3
    · rcases h with h | h
      · rw [h] at t3; cases t3
      · exact absurd h t4
  have key : ∀ g' : Gui St C Mem S k, g'.input.sim = r.1 → g'.sim0 = g0.sim0 → v.bodies r.1.state ≤ g'.colors → g'.renderers = v.shapes r.1.state →
      (v.resetRecolours = true ∨ (g'.colors = g0.colors ∧ g'.renderers = g0.renderers)) → Drawable v g' := by
    intro g' e1 e2 e3 e4 e5
    refine ⟨by rw [e1]; exact e3, by rw [e1]; exact e4, by rw [e1]; exact t1, by rw [e2]; exact hg0.formed0, ?_⟩
    rcases e5 with e5 | ⟨e5, e6⟩
    · exact Or.inl e5
    · rw [e2, e5, e6]; exact hg0.reset
  by_cases hv : v.stepRecolours = true
  · by_cases hl : g.renderers.length ≠ (v.shapes g.input.sim.state).length
    · by_cases hb : v.hasBox g.input.sim.state = true
      · have e : refresh v g = .exit := by unfold refresh; rw [if_pos hv]; simp only; rw [if_pos hl, if_pos hb]
        rw [e]
        exact ⟨fun h => (by cases h), fun g' h => (by cases h)⟩
      · have e : refresh v g = .ok { g with colors := v.bodies g.input.sim.state, renderers := v.shapes g.input.sim.state } := by
          unfold refresh; rw [if_pos hv]; simp only; rw [if_pos hl, if_neg hb]
        rw [e]
        refine ⟨nofun, fun g' h => ?_⟩
        cases h
        exact key _ hin hs (by show v.bodies r.1.state ≤ v.bodies g.input.sim.state; rw [hin]) (by show v.shapes g.input.sim.state = _; rw [hin]) (Or.inl (ht.reset hv))
    · have e : refresh v g = .ok { g with colors := v.bodies g.input.sim.state } := by
        unfold refresh; rw [if_pos hv]; simp only; rw [if_neg hl]
      rw [e]
      refine ⟨nofun, fun g' h => ?_⟩
      cases h
      refine key _ hin hs (by show v.bodies r.1.state ≤ v.bodies g.input.sim.state; rw [hin]) ?_ (Or.inl (ht.reset hv))
      show g.renderers = _
      rw [hren, hold]
      refine (hsame (Or.inr ?_)).symm
      push Not at hl
      rw [← hold, ← hren, hl, hin]
  · have e : refresh v g = .ok g := by unfold refresh; rw [if_neg hv]
    rw [e]
    refine ⟨nofun, fun g' h => ?_⟩
    cases h
    refine key _ hin hs ?_ ?_ (Or.inr ⟨hcol, hren⟩)
    · rw [hcol]
      rcases t2 with t2 | t2
      · exact t2.trans (by rw [← hi]; exact hg0.colors)
      · exact absurd t2 hv
    · rw [hren, hold, hsame (Or.inl (by simpa using hv))]

omit [AddCommGroup S] [LinearOrder S] in
theorem onFrame_ne_ub {g : Gui St C Mem S k} (h : g.stepsPerFrame ≠ 0) : onFrame g ≠ .ub := by
  unfold onFrame
  rw [if_neg h]
  exact (nomatch ·)

omit [AddCommGroup S] [LinearOrder S] in
theorem show_drawable {v : Frontend St C Mem S k} {g : Gui St C Mem S k} (hg : Drawable v g) :
    (g.stepsPerFrame ≠ 0 → show_ v g ≠ .ub) ∧
    ∀ g', show_ v g = .ok g' → Drawable v g' ∧ (g.renderAtFps = false ∨ g.input.iteration % g.stepsPerFrame = 0 → Current v g') := by
  constructor
  · intro hs
    refine bind_ne_ub ?_ ?_
    · split
      · refine bind_ne_ub (onFrame_ne_ub hs) fun b _ => ?_
        split
        · exact paint_ne_ub hg
        · exact nofun
      · exact paint_ne_ub hg
    · intro g1 h1
      have hs1 : g1.stepsPerFrame = g.stepsPerFrame := by
        split at h1
        · obtain ⟨b, -, h1⟩ := Outcome.bind_ok_iff.mp h1
          split at h1
          · rw [paint_ok h1]
          · cases h1; rfl
        · rw [paint_ok h1]
      split
      · exact bind_ne_ub (onFrame_ne_ub (by rw [hs1]; exact hs)) fun b _ => nofun
      · exact nofun
  · intro g' h
    obtain ⟨g1, h1, h2⟩ := Outcome.bind_ok_iff.mp h
    have e1 : Drawable v g1 ∧ (g.renderAtFps = false ∨ g.input.iteration % g.stepsPerFrame = 0 → Current v g1) := by
      split at h1
      · rename_i hr
        obtain ⟨b, hb, h1⟩ := Outcome.bind_ok_iff.mp h1
        unfold onFrame at hb
        split at hb
        · cases hb
        · cases hb
          split at h1
          · obtain ⟨a1, a2⟩ := paint_current hg h1
            exact ⟨a2, fun _ => a1⟩
          · rename_i hz
            cases h1
            refine ⟨hg, ?_⟩
            rintro (h3 | h3)
            · rw [hr] at h3; cases h3
            · exact absurd (by simpa using h3) hz
      · obtain ⟨a1, a2⟩ := paint_current hg h1
        exact ⟨a2, fun _ => a1⟩
    split at h2
    · obtain ⟨b, -, h2⟩ := Outcome.bind_ok_iff.mp h2
      cases h2
      split
      · exact ⟨e1.1.of_eq rfl rfl rfl, fun h3 => (e1.2 h3).of_eq rfl rfl rfl⟩
      · exact e1
    · cases h2; exact e1

theorem step_drawable {v : Frontend St C Mem S k} (ht : Tame v) (hv : Sound v) {g : Gui St C Mem S k} (hg : Drawable v g)
    (hk : kindOf v.program.format.hasImpactMap g.input = .nothing ∨ InputComplete v.program g.input) :
    (g.stepsPerFrame ≠ 0 → step v g ≠ .ub) ∧
    ∀ g', step v g = .ok g' → g'.finished = false → Drawable v g' ∧
      (Current v g → g.renderAtFps = false ∨ g'.input.iteration % g'.stepsPerFrame = 0 → Current v g') := by
  constructor
  · intro hs
    unfold step
    split
    · exact bind_ne_ub (hv.finish _ _) fun _ _ => nofun
    · split
      · exact nofun
      · rename_i hne
        have hc := hk.resolve_left hne
        refine bind_ne_ub ?_ ?_
        · cases kindOf v.program.format.hasImpactMap g.input with
          | nothing => exact nofun
          | free => exact bind_ne_ub (hv.free _) fun _ _ => nofun
          | impact => exact bind_ne_ub (hv.impact _) fun _ _ => nofun
          | friction => exact hv.friction _
          | impossible => exact nofun
        · intro r hr
          have hf := runKind_flowStep hc hr
          obtain ⟨a1, a2⟩ := refresh_drawable (g := { ({ g with input := { g.input with sim := r.1, impactFrictionMap := r.2, iteration := g.input.iteration + 1 } } : Gui St C Mem S k) with
            drift := fun i => max (g.drift i) |g.measure0 i - v.measure r.1.state i| }) ht hf hg rfl rfl rfl rfl rfl
          refine bind_ne_ub a1 fun g2 h2 => ?_
          refine (show_drawable (a2 g2 h2)).1 ?_
          have := refresh_panel h2
          simp only [Gui.panel, Prod.mk.injEq] at this
          rw [this.2.2.2.2.2.2.2.2]; exact hs
  · intro g' h hf'
    unfold step at h
    split at h
    · obtain ⟨w, -, h⟩ := Outcome.bind_ok_iff.mp h
      cases h; cases hf'
    · split at h
      · cases h; exact ⟨hg, fun hc _ => hc⟩
      · rename_i hne
        have hc := hk.resolve_left hne
        obtain ⟨r, hr, h⟩ := Outcome.bind_ok_iff.mp h
        obtain ⟨g2, h2, h3⟩ := Outcome.bind_ok_iff.mp h
        have hf := runKind_flowStep hc hr
        obtain ⟨-, a2⟩ := refresh_drawable (g := { ({ g with input := { g.input with sim := r.1, impactFrictionMap := r.2, iteration := g.input.iteration + 1 } } : Gui St C Mem S k) with
            drift := fun i => max (g.drift i) |g.measure0 i - v.measure r.1.state i| }) ht hf hg rfl rfl rfl rfl rfl
        obtain ⟨b1, b2⟩ := (show_drawable (a2 g2 h2)).2 g' h3
        refine ⟨b1, fun _ hor => b2 ?_⟩
        have hp := refresh_panel h2
        simp only [Gui.panel, Prod.mk.injEq] at hp
        have hp' := show_panel h3
        simp only [Gui.panel, Prod.mk.injEq] at hp'
        rw [hp'.2.2.2.2.2.2.2.2, Core.input_eq (show_core h3).1] at hor
        rw [hp.2.1]
        exact hor

omit [AddCommGroup S] [LinearOrder S] in
theorem represents_bounds {n d : ℤ} {r : Rat64} (hn : n ≠ 0) (hd : d ≠ 0) (h : Represents r ((n : ℚ) / d)) : r.num.natAbs ≤ n.natAbs ∧ r.den.natAbs ≤ d.natAbs := by
  have e : (n : ℚ) / d = Rat.divInt n d := (Rat.divInt_eq_div n d).symm
  rw [e] at h
  constructor
  · rw [h.1]
    exact Nat.le_of_dvd (Int.natAbs_pos.mpr hn) (Int.natAbs_dvd_natAbs.mpr (Rat.num_dvd n hd))
  · rw [h.2]
    exact Nat.le_of_dvd (Int.natAbs_pos.mpr hd) (Int.natAbs_dvd_natAbs.mpr (Rat.den_dvd n d))

omit [AddCommGroup S] [LinearOrder S] in
/-- The steps per frame for a usual time step and any frame rate that can be set: defined and not zero -/
theorem usual_paced {dtNum dtDen : Int64} (h : Usual dtNum dtDen) {fps : UInt32} (hf : 1 ≤ fps ∧ fps ≤ 1000) :
    ∃ n, stepsPerFrameOf ⟨dtNum.toInt, dtDen.toInt⟩ fps.toNat = .ok n ∧ n ≠ 0 := by
  obtain ⟨h1, h2, h3, h4⟩ := h
  have hf1 : 1 ≤ fps.toNat ∧ fps.toNat ≤ 1000 := by simpa [UInt32.le_iff_toNat_le] using hf
  generalize dtNum.toInt = a at *
  generalize dtDen.toInt = b at *
  have hab : 0 < a * (fps.toNat : ℤ) ∧ a * (fps.toNat : ℤ) < 9223372036854775808 := by
    constructor
    · have : (0 : ℤ) < (fps.toNat : ℤ) := by omega
      positivity
    · have : (fps.toNat : ℤ) ≤ 1000 := by omega
      nlinarith
  have hfa : Fits (a * (fps.toNat : ℤ)) := by unfold Fits; omega
  have hfb : Fits b := by unfold Fits; omega
  obtain ⟨d, hd⟩ := simplify_fits (by omega) hfa hfb
  have hmul : Rat64.mulInt ⟨a, b⟩ (fps.toNat : ℤ) = .ok d := by
    unfold Rat64.mulInt
    simp only [Outcome.bind_eq_ok, chk_eq_ok]
    exact ⟨_, ⟨hfa.inI64, rfl⟩, hd⟩
  have hrep := simplify_ok (by omega) hd
  have hbd := represents_bounds (by omega) (by omega) hrep
  have hdpos : 0 < d.den := hrep.den_pos
  have hq : (0 : ℚ) < ((a * (fps.toNat : ℤ) : ℤ) : ℚ) / (b : ℚ) := by
    have e1 : (0 : ℚ) < ((a * (fps.toNat : ℤ) : ℤ) : ℚ) := by exact_mod_cast hab.1
    have e2 : (0 : ℚ) < (b : ℚ) := by exact_mod_cast h3
    positivity
  have hnpos : 0 < d.num := by rw [hrep.1]; exact Rat.num_pos.mpr hq
  unfold stepsPerFrameOf
  rw [show (Rat64.mulInt ⟨a, b⟩ ((fps.toNat : ℕ) : ℤ)) = .ok d from hmul]
  show ∃ n, (if d.den < d.num then Outcome.ok (1 : UInt32) else _) = .ok n ∧ n ≠ 0
  split
  · exact ⟨1, rfl, by decide⟩
  · have hfd : Fits (d.den * 1) := by unfold Fits; omega
    have hfn : Fits d.num := by unfold Fits; omega
    obtain ⟨r, hr⟩ := simplify_fits (n := d.den * 1) (d := d.num) (by omega) hfd hfn
    have hdiv : Rat64.intDiv 1 d = .ok r := by
      unfold Rat64.intDiv
      simp only [Outcome.bind_eq_ok, chk_eq_ok]
      exact ⟨_, ⟨hfd.inI64, rfl⟩, hr⟩
    rw [hdiv]
    show ∃ n, (if r.isInteger then Outcome.ok (UInt32.ofInt r.num) else .ok 1) = .ok n ∧ n ≠ 0
    split
    · refine ⟨_, rfl, ?_⟩
      have hrr := simplify_ok (by omega) hr
      have hb2 := represents_bounds (by omega) (by omega) hrr
      have hrpos : 0 < r.num := by
        rw [hrr.1]
        apply Rat.num_pos.mpr
        have e1 : (0 : ℚ) < ((d.den * 1 : ℤ) : ℚ) := by exact_mod_cast (by omega : (0 : ℤ) < d.den * 1)
        have e2 : (0 : ℚ) < (d.num : ℚ) := by exact_mod_cast hnpos
        positivity
      have hlt : r.num < 4294967296 := by omega
      intro h0
      have := congrArg UInt32.toNat h0
      unfold UInt32.ofInt at this
      simp at this
      omega
    · exact ⟨1, rfl, by decide⟩

omit [AddCommGroup S] [LinearOrder S] in
/-- Either there is no scene, and a step does nothing, or the scene is complete. -/
theorem start_nothing (v : Frontend St C Mem S k) (i : StepInput (World St C Mem))
    (h : i.integrator = .null ∧ i.impactOp = .null ∧ i.impactMap = .null ∧ i.frictionSolver = .null ∧ i.impactFrictionMap = .null) :
    kindOf v.program.format.hasImpactMap i = .nothing := if_pos ⟨h.1, h.2.1, h.2.2.2.1, fun _ => ⟨h.2.2.1, h.2.2.2.2⟩⟩

omit [LinearOrder S] in
theorem openScene_drawable {v : Frontend St C Mem S k} (ht : Tame v) (hv : Sound v) {g : Gui St C Mem S k} (hg : Drawable v g) {name : Bytes} {f : File St} {render : Bool}
    (hwf : f.WellFormed v) (hu : f.Usual) (hr : f.FpsInRange) (hc : Consistent g) :
    openScene v name f render g ≠ .ub ∧
    ∀ g', openScene v name f render g = .ok g' → Drawable v g' ∧ (render = true → Current v g → Current v g') := by
  cases f with
  | missing => exact ⟨nofun, fun g' h => by cases h; exact ⟨hg, fun _ h => h⟩⟩
  | refused => exact ⟨nofun, fun g' h => by cases h; exact ⟨hg, fun _ h => h⟩⟩
  | scene s =>
    have hfps : 1 ≤ (s.display.map Display.fps).getD g.fps ∧ (s.display.map Display.fps).getD g.fps ≤ 1000 := by
      cases hdis : s.display with
      | none => show 1 ≤ g.fps ∧ g.fps ≤ 1000; rw [← hc.fps]; exact hc.range
      | some d => exact hr d hdis
    -- the start function
    have hstart : ∀ (y z : Gui St C Mem S k), y.input.sim.state = s.state → y.sim0.1 = s.state → y.colors = v.bodies s.state → y.renderers = v.shapes s.state →
        startCallback v y = .ok z → Drawable v z ∧ z.input.dtNum = y.input.dtNum ∧ z.input.dtDen = y.input.dtDen := by
      intro y z e1 e2 e3 e4 hz
      obtain ⟨r, hr, rfl⟩ := startCallback_ok hz
      obtain ⟨a1, a2, a3⟩ := ht.start _ _ _ _ hr (by rw [e1]; exact hwf)
      rw [e1] at a2 a3
      refine ⟨⟨?_, ?_, a1, ?_, ?_⟩, rfl, rfl⟩
      · show v.bodies r.1.state ≤ y.colors; rw [e3]; exact a2
      · show y.renderers = v.shapes r.1.state; rw [e4, a3]
      · show WellFormed v y.sim0.1; rw [e2]; exact hwf
      · right; show v.bodies y.sim0.1 ≤ y.colors ∧ y.renderers = v.shapes y.sim0.1; rw [e2, e3, e4]; exact ⟨le_refl _, rfl⟩
    have hspin : ∀ y : Gui St C Mem S k, y.input.dtNum = s.dtNum ∧ y.input.dtDen = s.dtDen → ∀ n, setSpin n y ≠ .ub := by
      intro y hy n
      unfold setSpin
      simp only
      split
      · exact nofun
      · obtain ⟨m, hm, -⟩ := usual_paced hu (clamp_range n)
        unfold setMovieFps
        simp only [hy.1, hy.2]
        rw [hm]
        exact fun h => (by cases h)
    have hspin_d : ∀ {y z : Gui St C Mem S k} {n}, setSpin n y = .ok z → (Drawable v y → Drawable v z) ∧ (Current v y → Current v z) := by
      intro y z n h
      unfold setSpin at h
      simp only at h
      split at h
      · cases h; exact ⟨id, id⟩
      · obtain ⟨n', -, rfl⟩ := setMovieFps_ok h
        exact ⟨fun h => h.of_eq rfl rfl rfl, fun h => h.of_eq rfl rfl rfl⟩
    have hw : openWidget v s render g ≠ .ub ∧ ∀ y, openWidget v s render g = .ok y →
        Drawable v y ∧ (render = true → Current v y) ∧ y.input.dtNum = s.dtNum ∧ y.input.dtDen = s.dtDen := by
      constructor
      · refine bind_ne_ub (hv.load _ _ _) fun mem _ => ?_
        refine bind_ne_ub ?_ fun y hy => ?_
        · obtain ⟨m, hm, -⟩ := usual_paced hu hfps
          unfold setMovieFps
          refine bind_ne_ub (a := stepsPerFrameOf ⟨s.dtNum.toInt, s.dtDen.toInt⟩ ((s.display.map Display.fps).getD g.fps).toNat) (by rw [hm]; exact nofun) fun _ _ => nofun
        · obtain ⟨n, -, rfl⟩ := setMovieFps_ok hy
          refine bind_ne_ub (bind_ne_ub (hv.start _ _ _) fun _ _ => nofun) fun z hz => ?_
          split
          · exact paint_ne_ub (hstart _ z rfl rfl rfl rfl hz).1
          · exact nofun
      · intro y h
        obtain ⟨mem, -, hA⟩ := Outcome.bind_ok_iff.mp h
        obtain ⟨ga, ha, hB⟩ := Outcome.bind_ok_iff.mp hA
        obtain ⟨gb, hb, hC⟩ := Outcome.bind_ok_iff.mp hB
        obtain ⟨n, -, rfl⟩ := setMovieFps_ok ha
        obtain ⟨hd, e1, e2⟩ := hstart _ gb rfl rfl rfl rfl hb
        cases render with
        | true =>
          have h : paint v gb = .ok y := hC
          obtain ⟨b1, b2⟩ := paint_current hd h
          refine ⟨b2, fun _ => b1, ?_⟩
          rw [paint_ok h]; exact ⟨e1, e2⟩
        | false =>
          have h : gb = y := Outcome.ok.inj hC
          rw [← h]
          exact ⟨hd, fun hh => (by cases hh), e1, e2⟩
    constructor
    · refine bind_ne_ub hw.1 fun y hy => ?_
      exact bind_ne_ub (hspin { y with simulate := false } (hw.2 y hy).2.2 _) fun _ _ => nofun
    · intro g' h
      obtain ⟨g1, h1, h⟩ := Outcome.bind_ok_iff.mp h
      obtain ⟨g2, h2, h⟩ := Outcome.bind_ok_iff.mp h
      obtain ⟨w1, w2, -⟩ := hw.2 g1 h1
      have hfin : uncheckMovie { setLock g1.lock (setRender g1.renderAtFps g2) with sceneName := name } = g' := Outcome.ok.inj h
      obtain ⟨d1, d2⟩ := hspin_d h2
      have d1 := d1 (w1.of_eq rfl rfl rfl)
      rw [← hfin]
      unfold uncheckMovie setLock setRender setMovieDir
      constructor
      · split <;> split <;> split <;> exact d1.of_eq rfl rfl rfl
      · intro hr _
        have d2 := d2 ((w2 hr).of_eq rfl rfl rfl)
        split <;> split <;> split <;> exact d2.of_eq rfl rfl rfl

/-- Everything that is used to show that nothing undefined happens -/
structure Healthy (v : Frontend St C Mem S k) (g : Gui St C Mem S k) : Prop where
  drawable : Drawable v g
  consistent : Consistent g
  paced : Paced g
  settled : (g.input.integrator = .null ∧ g.input.impactOp = .null ∧ g.input.impactMap = .null ∧ g.input.frictionSolver = .null ∧ g.input.impactFrictionMap = .null ∧
      g.input.dtNum = 0 ∧ g.input.dtDen = 1) ∨ (InputComplete v.program g.input ∧ Usual g.input.dtNum g.input.dtDen)

omit [AddCommGroup S] [LinearOrder S] in
theorem stepsPerFrameOf_zero (n : UInt32) : stepsPerFrameOf ⟨(0 : Int64).toInt, (1 : Int64).toInt⟩ n.toNat = .ok 1 := by
  have h : Rat64.mulInt ⟨(0 : Int64).toInt, (1 : Int64).toInt⟩ (n.toNat : ℤ) = .ok ⟨0, 1⟩ := by
    unfold Rat64.mulInt
    rw [show (0 : Int64).toInt = 0 from rfl, show (1 : Int64).toInt = 1 from rfl]
    simp only [zero_mul]
    rfl
  unfold stepsPerFrameOf
  rw [h]
  decide +kernel

omit [AddCommGroup S] [LinearOrder S] in
theorem Healthy.rate {v : Frontend St C Mem S k} {g : Gui St C Mem S k} (hg : Healthy v g) {n : UInt32} (hn : 1 ≤ n ∧ n ≤ 1000) :
    ∃ m, stepsPerFrameOf ⟨g.input.dtNum.toInt, g.input.dtDen.toInt⟩ n.toNat = .ok m ∧ m ≠ 0 := by
  rcases hg.settled with ⟨-, -, -, -, -, h1, h2⟩ | ⟨-, h⟩
  · rw [h1, h2]; exact ⟨1, stepsPerFrameOf_zero n, by decide⟩
  · exact usual_paced h hn

omit [AddCommGroup S] [LinearOrder S] in
theorem Healthy.steps {v : Frontend St C Mem S k} {g : Gui St C Mem S k} (hg : Healthy v g) : g.stepsPerFrame ≠ 0 := by
  obtain ⟨m, h1, h2⟩ := hg.rate (n := g.fps) (by rw [← hg.consistent.fps]; exact hg.consistent.range)
  have hp : stepsPerFrameOf ⟨g.input.dtNum.toInt, g.input.dtDen.toInt⟩ g.fps.toNat = .ok g.stepsPerFrame := hg.paced
  rw [h1] at hp
  cases hp
  exact h2

theorem healthy_handle {v : Frontend St C Mem S k} (ht : Tame v) (hv : Sound v) (hp : KeepsSettings v.program) {e : Input St} {g : Gui St C Mem S k} (hg : Healthy v g)
    (hf : g.finished = false) (h1 : e.Sane v.program) (h2 : e.WellFormed v) (h3 : e.Usual) (h4 : e.FpsInRange) :
    handle v e g ≠ .ub ∧ ∀ g', handle v e g = .ok g' → g'.finished = false → Healthy v g' ∧
      (Current v g → g.renderAtFps = false ∨ g'.input.iteration % g'.stepsPerFrame = 0 → Current v g') := by
  have hkind : kindOf v.program.format.hasImpactMap g.input = .nothing ∨ InputComplete v.program g.input := by
    rcases hg.settled with ⟨a1, a2, a3, a4, a5, -⟩ | ⟨a, -⟩
    · exact Or.inl (start_nothing v g.input ⟨a1, a2, a3, a4, a5⟩)
    · exact Or.inr a
  have hstep := step_drawable ht hv hg.drawable hkind
  have hset : ∀ {y : Gui St C Mem S k}, step v g = .ok y → y.finished = false →
      (y.input.integrator = .null ∧ y.input.impactOp = .null ∧ y.input.impactMap = .null ∧ y.input.frictionSolver = .null ∧ y.input.impactFrictionMap = .null ∧
      y.input.dtNum = 0 ∧ y.input.dtDen = 1) ∨ (InputComplete v.program y.input ∧ Usual y.input.dtNum y.input.dtDen) := by
    intro y hy hyf
    rcases hg.settled with ha | ⟨hc, hu⟩
    · have hk := start_nothing v g.input ⟨ha.1, ha.2.1, ha.2.2.1, ha.2.2.2.1, ha.2.2.2.2.1⟩
      unfold step at hy
      split at hy
      · obtain ⟨w, -, hy⟩ := Outcome.bind_ok_iff.mp hy
        cases hy; cases hyf
      · cases hy; exact Or.inl ha
    · obtain ⟨-, x, hx, e1, -⟩ := step_ok hy hyf hc
      have e2 : y.input = x := congrArg Core.input e1
      have hs := advance_settings hp hx
      rw [e2]
      exact Or.inr ⟨hs.complete hc, by rw [hs.dtNum, hs.dtDen]; exact hu⟩
  have hopen : ∀ (name : Bytes) (f : File St), (Input.openFile name f).Sane v.program → f.WellFormed v → f.Usual → f.FpsInRange →
      openScene v name f true g ≠ .ub ∧ ∀ g', openScene v name f true g = .ok g' → Healthy v g' ∧ (Current v g → Current v g') := by
    intro name f hs hw hu hr
    obtain ⟨o1, o2⟩ := openScene_drawable (name := name) (render := true) ht hv hg.drawable hw hu hr hg.consistent
    refine ⟨o1, fun g' h => ?_⟩
    obtain ⟨o3, o4⟩ := o2 g' h
    obtain ⟨c1, c2⟩ := openScene_consistent hg.consistent hg.paced hr h
    refine ⟨⟨o3, c1, c2, ?_⟩, o4 rfl⟩
    cases f with
    | missing => cases h; exact hg.settled
    | refused => cases h; exact hg.settled
    | scene s =>
      obtain ⟨mem, r, -, e, -⟩ := openScene_ok h
      have e2 : g'.input = s.begin r.1 r.2 := congrArg Core.input e
      rw [e2]
      exact Or.inr ⟨hs.2.1, hu⟩
  have hsame : ∀ {y : Gui St C Mem S k}, handle v e g = .ok y → y.core = g.core → y.colors = g.colors → y.renderers = g.renderers → y.buffer = g.buffer → y.hud = g.hud →
      Healthy v y ∧ (Current v g → g.renderAtFps = false ∨ y.input.iteration % y.stepsPerFrame = 0 → Current v y) := by
    intro y hy e1 e2 e3 e4 e5
    obtain ⟨c1, c2⟩ := C78_controls_partial v e g y h4 hg.consistent hg.paced hy
    exact ⟨⟨hg.drawable.of_eq e1 e2 e3, c1, c2, by rw [Core.input_eq e1]; exact hg.settled⟩, fun hc _ => hc.of_eq e1 e4 e5⟩
  have hpaint : ∀ {z : Gui St C Mem S k}, z.core = g.core → z.colors = g.colors → z.renderers = g.renderers → handle v e g = paint v z →
      paint v z ≠ .ub ∧ ∀ y, paint v z = .ok y → Healthy v y ∧ Current v y := by
    intro z e1 e2 e3 e4
    have hd := hg.drawable.of_eq e1 e2 e3
    refine ⟨paint_ne_ub hd, fun y hy => ?_⟩
    obtain ⟨b1, b2⟩ := paint_current hd hy
    obtain ⟨c1, c2⟩ := C78_controls_partial v e g y h4 hg.consistent hg.paced (e4.trans hy)
    refine ⟨⟨b2, c1, c2, ?_⟩, b1⟩
    rw [Core.input_eq ((paint_core hy).1.trans e1)]
    exact hg.settled
  have hif : ∀ (x : Outcome (Gui St C Mem S k)), (if g.finished then Outcome.ok g else x) = x := fun x => if_neg (by rw [hf]; decide)
  cases e with
  | step =>
    have e : handle v .step g = step v g := hif _
    rw [e]
    refine ⟨hstep.1 hg.steps, fun y hy hyf => ?_⟩
    obtain ⟨c1, c2⟩ := C78_controls_partial v .step g y h4 hg.consistent hg.paced (e.trans hy)
    obtain ⟨d1, d2⟩ := hstep.2 y hy hyf
    exact ⟨⟨d1, c1, c2, hset hy hyf⟩, d2⟩
  | idle =>
    have e : handle v .idle g = if g.simulate then step v g else .ok g := hif _
    by_cases hs : g.simulate = true
    · rw [if_pos hs] at e
      rw [e]
      refine ⟨hstep.1 hg.steps, fun y hy hyf => ?_⟩
      obtain ⟨c1, c2⟩ := C78_controls_partial v .idle g y h4 hg.consistent hg.paced (e.trans hy)
      obtain ⟨d1, d2⟩ := hstep.2 y hy hyf
      exact ⟨⟨d1, c1, c2, hset hy hyf⟩, d2⟩
    · rw [if_neg hs] at e
      rw [e]
      exact ⟨nofun, fun y hy _ => by cases hy; exact ⟨hg, fun h _ => h⟩⟩
  | toggleSimulate =>
    have e : handle v .toggleSimulate g = .ok { g with simulate := !g.simulate } := hif _
    rw [e] at hsame ⊢
    exact ⟨nofun, fun y hy _ => by cases hy; exact hsame rfl rfl rfl rfl rfl rfl⟩
  | reset =>
    have e : handle v .reset g = (resetWidget v g).bind fun g => .ok (if v.resetEndsMovie then uncheckMovie g else g) := hif _
    -- the state that is painted
    have hmid : ∀ z : Gui St C Mem S k, z.input.sim = ⟨g.sim0.1, g.sim0.2, g.input.sim.memory⟩ → z.sim0 = g.sim0 →
        (v.resetRecolours = true → z.colors = v.bodies g.sim0.1 ∧ z.renderers = v.shapes g.sim0.1) →
        (v.resetRecolours = false → z.colors = g.colors ∧ z.renderers = g.renderers) → (startCallback v z).bind (paint v) ≠ .ub ∧
        ∀ y, (startCallback v z).bind (paint v) = .ok y → Drawable v y ∧ Current v y := by
      intro z z1 z2 z3 z4
      have hz : v.bodies g.sim0.1 ≤ z.colors ∧ z.renderers = v.shapes g.sim0.1 := by
        cases hv : v.resetRecolours with
        | true => obtain ⟨w1, w2⟩ := z3 hv; rw [w1]; exact ⟨le_refl _, w2⟩
        | false =>
          obtain ⟨w1, w2⟩ := z4 hv
          rw [w1, w2]
          rcases hg.drawable.reset with h | h
          · rw [hv] at h; cases h
          · exact h
      have hd : ∀ y, startCallback v z = .ok y → Drawable v y := by
        intro y hy
        obtain ⟨r, hr, rfl⟩ := startCallback_ok hy
        rw [z1] at hr
        obtain ⟨a1, a2, a3⟩ := ht.start _ _ _ _ hr hg.drawable.formed0
        refine ⟨a2.trans hz.1, by show z.renderers = v.shapes r.1.state; rw [a3]; exact hz.2, a1, ?_, Or.inr ?_⟩
        · show WellFormed v z.sim0.1; rw [z2]; exact hg.drawable.formed0
        · show v.bodies z.sim0.1 ≤ z.colors ∧ z.renderers = v.shapes z.sim0.1; rw [z2]; exact hz
      constructor
      · exact bind_ne_ub (bind_ne_ub (hv.start _ _ _) fun _ _ => nofun) fun y hy => paint_ne_ub (hd y hy)
      · intro y h
        obtain ⟨z', hz', h⟩ := Outcome.bind_ok_iff.mp h
        obtain ⟨b1, b2⟩ := paint_current (hd z' hz') h
        exact ⟨b2, b1⟩
    have hrw : resetWidget v g ≠ .ub ∧ ∀ y, resetWidget v g = .ok y → Drawable v y ∧ Current v y := by
      unfold resetWidget
      refine hmid _ ?_ ?_ ?_ ?_
      · cases v.resetEndsMovie <;> cases v.resetRecolours <;> rfl
      · cases v.resetEndsMovie <;> cases v.resetRecolours <;> rfl
      · intro hr
        simp only [hr, if_true]
        cases v.resetEndsMovie <;> exact ⟨rfl, rfl⟩
      · intro hr
        simp only [hr, Bool.false_eq_true, if_false]
        cases v.resetEndsMovie <;> exact ⟨rfl, rfl⟩
    constructor
    · rw [e]
      exact bind_ne_ub hrw.1 fun _ _ => nofun
    · intro y hy hyf
      obtain ⟨c1, c2⟩ := C78_controls_partial v .reset g y h4 hg.consistent hg.paced hy
      rw [e] at hy
      obtain ⟨z, hz, hy⟩ := Outcome.bind_ok_iff.mp hy
      obtain ⟨r, -, hcore, -⟩ := resetWidget_ok hz
      have hy := Outcome.ok.inj hy
      obtain ⟨b1, b2⟩ := hrw.2 z hz
      have hun : (uncheckMovie z).core = z.core ∧ (uncheckMovie z).colors = z.colors ∧ (uncheckMovie z).renderers = z.renderers ∧ (uncheckMovie z).buffer = z.buffer ∧
          (uncheckMovie z).hud = z.hud := by
        unfold uncheckMovie setMovieDir
        split <;> exact ⟨rfl, rfl, rfl, rfl, rfl⟩
      obtain ⟨u1, u2, u3, u4, u5⟩ := hun
      have hyz : y.core = z.core ∧ Drawable v y ∧ Current v y := by
        rw [← hy]
        split
        · exact ⟨u1, b1.of_eq u1 u2 u3, b2.of_eq u1 u4 u5⟩
        · exact ⟨rfl, b1, b2⟩
      refine ⟨⟨hyz.2.1, c1, c2, ?_⟩, fun _ _ => hyz.2.2⟩
      have hin : y.input = { g.input with sim := r.1, impactFrictionMap := resetCachedData g.input.impactFrictionMap, iteration := r.2 } :=
        (Core.input_eq hyz.1).trans (congrArg Core.input hcore)
      rw [hin]
      rcases hg.settled with ⟨a1, a2, a3, a4, a5, a6, a7⟩ | ⟨hc, hu⟩
      · exact Or.inl ⟨a1, a2, a3, a4, resetCachedData_null.mpr a5, a6, a7⟩
      · refine Or.inr ⟨?_, hu⟩
        refine SameSettings.complete (j := g.input) ?_ hc
        exact ⟨rfl, rfl, rfl, rfl, rfl, rfl, rfl, rfl, resetCachedData_idem _, rfl, rfl⟩
  | openFile name f =>
    have e : handle v (.openFile name f) g = openScene v name f true g := hif _
    rw [e]
    obtain ⟨o1, o2⟩ := hopen name f h1 h2 h3 h4
    exact ⟨o1, fun y hy _ => ⟨(o2 y hy).1, fun hc _ => (o2 y hy).2 hc⟩⟩
  | reload f =>
    have e : handle v (.reload f) g = if g.sceneName = [] then .ok g else openScene v g.sceneName f true g := hif _
    by_cases hn : g.sceneName = []
    · rw [e, if_pos hn]
      exact ⟨nofun, fun y hy _ => by cases hy; exact ⟨hg, fun h _ => h⟩⟩
    · rw [e, if_neg hn]
      obtain ⟨o1, o2⟩ := hopen g.sceneName f (by cases f <;> [trivial; trivial; exact ⟨hn, h1⟩]) h2 h3 h4
      exact ⟨o1, fun y hy _ => ⟨(o2 y hy).1, fun hc _ => (o2 y hy).2 hc⟩⟩
  | toggleRender =>
    have e : handle v .toggleRender g = .ok (setRender (!g.renderBox) g) := hif _
    rw [e] at hsame ⊢
    refine ⟨nofun, fun y hy _ => ?_⟩
    have hy' := Outcome.ok.inj hy
    have : y.core = g.core ∧ y.colors = g.colors ∧ y.renderers = g.renderers ∧ y.buffer = g.buffer ∧ y.hud = g.hud := by
      rw [← hy']; unfold setRender; split <;> exact ⟨rfl, rfl, rfl, rfl, rfl⟩
    exact hsame hy this.1 this.2.1 this.2.2.1 this.2.2.2.1 this.2.2.2.2
  | toggleLock =>
    have e : handle v .toggleLock g = .ok (setLock (!g.lockBox) g) := hif _
    rw [e] at hsame ⊢
    refine ⟨nofun, fun y hy _ => ?_⟩
    have hy' := Outcome.ok.inj hy
    have : y.core = g.core ∧ y.colors = g.colors ∧ y.renderers = g.renderers ∧ y.buffer = g.buffer ∧ y.hud = g.hud := by
      rw [← hy']; unfold setLock; split <;> exact ⟨rfl, rfl, rfl, rfl, rfl⟩
    exact hsame hy this.1 this.2.1 this.2.2.1 this.2.2.2.1 this.2.2.2.2
  | setFps n =>
    have e : handle v (.setFps n) g = setSpin n g := hif _
    constructor
    · rw [e]
      unfold setSpin
      simp only
      split
      · exact nofun
      · obtain ⟨m, hm, -⟩ := hg.rate (clamp_range n)
        unfold setMovieFps
        simp only
        rw [hm]
        exact fun h => (by cases h)
    · intro y hy _
      have hy' := e.symm.trans hy
      have : y.core = g.core ∧ y.colors = g.colors ∧ y.renderers = g.renderers ∧ y.buffer = g.buffer ∧ y.hud = g.hud := by
        unfold setSpin at hy'
        simp only at hy'
        split at hy'
        · cases hy'; exact ⟨rfl, rfl, rfl, rfl, rfl⟩
        · obtain ⟨m, -, rfl⟩ := setMovieFps_ok hy'; exact ⟨rfl, rfl, rfl, rfl, rfl⟩
      exact hsame hy this.1 this.2.1 this.2.2.1 this.2.2.2.1 this.2.2.2.2
  | toggleMovie dir =>
    have e : handle v (.toggleMovie dir) g = .ok (if g.movieBox then uncheckMovie g else checkMovie dir g) := hif _
    rw [e] at hsame ⊢
    refine ⟨nofun, fun y hy _ => ?_⟩
    have hy' := Outcome.ok.inj hy
    have : y.core = g.core ∧ y.colors = g.colors ∧ y.renderers = g.renderers ∧ y.buffer = g.buffer ∧ y.hud = g.hud := by
      rw [← hy']; unfold checkMovie uncheckMovie setMovieDir saveFrame saveScreenshot; split <;> split <;> (try split) <;> (try split) <;> exact ⟨rfl, rfl, rfl, rfl, rfl⟩
    exact hsame hy this.1 this.2.1 this.2.2.1 this.2.2.2.1 this.2.2.2.2
  | exportMovie dir =>
    have e : handle v (.exportMovie dir) g = .ok (checkMovie dir (uncheckMovie g)) := hif _
    rw [e] at hsame ⊢
    refine ⟨nofun, fun y hy _ => ?_⟩
    have hy' := Outcome.ok.inj hy
    have : y.core = g.core ∧ y.colors = g.colors ∧ y.renderers = g.renderers ∧ y.buffer = g.buffer ∧ y.hud = g.hud := by
      rw [← hy']; unfold checkMovie uncheckMovie setMovieDir saveFrame saveScreenshot; split <;> split <;> (try split) <;> (try split) <;> exact ⟨rfl, rfl, rfl, rfl, rfl⟩
    exact hsame hy this.1 this.2.1 this.2.2.1 this.2.2.2.1 this.2.2.2.2
  | exportImage file =>
    have e : handle v (.exportImage file) g = .ok (if file ≠ [] then saveScreenshot file g else g) := hif _
    rw [e] at hsame ⊢
    refine ⟨nofun, fun y hy _ => ?_⟩
    have hy' := Outcome.ok.inj hy
    have : y.core = g.core ∧ y.colors = g.colors ∧ y.renderers = g.renderers ∧ y.buffer = g.buffer ∧ y.hud = g.hud := by
      rw [← hy']; unfold saveScreenshot; split <;> exact ⟨rfl, rfl, rfl, rfl, rfl⟩
    exact hsame hy this.1 this.2.1 this.2.2.1 this.2.2.2.1 this.2.2.2.2
  | toggleHud =>
    have e : handle v .toggleHud g = paint v { g with hud := !g.hud } := hif _
    obtain ⟨p1, p2⟩ := hpaint (z := { g with hud := !g.hud }) rfl rfl rfl e
    rw [e]
    exact ⟨p1, fun y hy _ => ⟨(p2 y hy).1, fun _ _ => (p2 y hy).2⟩⟩
  | expose =>
    have e : handle v .expose g = paint v g := hif _
    obtain ⟨p1, p2⟩ := hpaint rfl rfl rfl e
    rw [e]
    exact ⟨p1, fun y hy _ => ⟨(p2 y hy).1, fun _ _ => (p2 y hy).2⟩⟩

theorem healthy_run {v : Frontend St C Mem S k} (ht : Tame v) (hv : Sound v) (hp : KeepsSettings v.program) : ∀ {es : List (Input St)} {g : Gui St C Mem S k}, Healthy v g →
    g.finished = false → (∀ e ∈ es, e.Sane v.program ∧ e.WellFormed v ∧ e.Usual ∧ e.FpsInRange) →
    runEvents v es g ≠ .ub ∧ ∀ g', runEvents v es g = .ok g' → g'.finished = false → Healthy v g'
  | [], g, hg, _, _ => ⟨nofun, fun g' h _ => by cases h; exact hg⟩
  | e :: es, g, hg, hf, he => by
    obtain ⟨e1, e2, e3, e4⟩ := he e List.mem_cons_self
    obtain ⟨a1, a2⟩ := healthy_handle ht hv hp hg hf e1 e2 e3 e4
    have hrest : ∀ e ∈ es, e.Sane v.program ∧ e.WellFormed v ∧ e.Usual ∧ e.FpsInRange := fun e' he' => he e' (List.mem_cons_of_mem _ he')
    have hdone : ∀ (es : List (Input St)) (y : Gui St C Mem S k), y.finished = true → runEvents v es y = .ok y := by
      intro es
      induction es with
      | nil => intro y _; rfl
      | cons e es ih =>
        intro y hy
        have : handle v e y = .ok y := by rw [handle.eq_def]; exact if_pos hy
        rw [runEvents, this]
        exact ih y hy
    constructor
    · refine bind_ne_ub a1 fun y hy => ?_
      cases hyf : y.finished with
      | true => rw [hdone es y hyf]; exact nofun
      | false => exact (healthy_run (es := es) ht hv hp (a2 y hy hyf).1 hyf hrest).1
    · intro g' h hf'
      obtain ⟨y, hy, h⟩ := Outcome.bind_ok_iff.mp h
      have hyf := runEvents_unfinished h hf'
      exact (healthy_run (es := es) ht hv hp (a2 y hy hyf).1 hyf hrest).2 g' h hf'

theorem healthy_session {v : Frontend St C Mem S k} (ht : Tame v) (hv : Sound v) (hp : KeepsSettings v.program) {state : St} {mem : Mem} {endTime nan : F64} {name : Bytes}
    {file : File St} {es : List (Input St)} (hempty : v.bodies state = 0 ∧ v.shapes state = [] ∧ v.shapeOf state = []) (hfps : 1 ≤ v.initialFps ∧ v.initialFps ≤ 1000)
    (hfile : (Input.openFile name file).Sane v.program ∧ file.WellFormed v ∧ file.Usual ∧ file.FpsInRange)
    (hes : ∀ e ∈ es, e.Sane v.program ∧ e.WellFormed v ∧ e.Usual ∧ e.FpsInRange) :
    session v state mem endTime nan name file es ≠ .ub ∧
    ∀ g, session v state mem endTime nan name file es = .ok g → g.finished = false → Healthy v g := by
  have hwf : WellFormed v state := by intro i hi; rw [hempty.2.2] at hi; cases hi
  have h0 : Healthy v (start v state mem endTime nan) := by
    refine ⟨⟨?_, ?_, hwf, hwf, Or.inr ⟨?_, ?_⟩⟩, ⟨rfl, rfl, by simp [start], rfl, hfps⟩, stepsPerFrameOf_zero _, Or.inl ⟨rfl, rfl, rfl, rfl, rfl, rfl, rfl⟩⟩
    · exact hempty.1.le
    · exact hempty.2.1.symm
    · exact hempty.1.le
    · exact hempty.2.1.symm
  obtain ⟨f1, f2, f3, f4⟩ := hfile
  obtain ⟨o1, o2⟩ := openScene_drawable (name := name) (render := false) ht hv h0.drawable f2 f3 f4 h0.consistent
  have h1 : ∀ g, startWith v state mem endTime nan name file = .ok g → Healthy v g ∧ g.finished = false := by
    intro g h
    obtain ⟨c1, c2⟩ := openScene_consistent h0.consistent h0.paced f4 h
    refine ⟨⟨(o2 g h).1, c1, c2, ?_⟩, ?_⟩
    · cases file with
      | missing => cases h; exact h0.settled
      | refused => cases h; exact h0.settled
      | scene s =>
        obtain ⟨mem, r, -, e, -⟩ := openScene_ok h
        have e2 : g.input = s.begin r.1 r.2 := congrArg Core.input e
        rw [e2]
        exact Or.inr ⟨f1.2.1, f3⟩
    · cases file with
      | missing => cases h; rfl
      | refused => cases h; rfl
      | scene s =>
        obtain ⟨mem, r, -, e, -⟩ := openScene_ok h
        exact congrArg Core.finished e
  constructor
  · refine bind_ne_ub o1 fun g hg => ?_
    obtain ⟨a, b⟩ := h1 g hg
    exact (healthy_run ht hv hp a b hes).1
  · intro g h hf
    obtain ⟨y, hy, h⟩ := Outcome.bind_ok_iff.mp h
    obtain ⟨a, b⟩ := h1 y hy
    exact (healthy_run ht hv hp a b hes).2 g h hf

/-- **C78.** In any session, if the simulation and the script themselves do nothing undefined, the script does not insert or replace bodies where the program is not prepared for it (`Tame`), and
scenes have frame rates that can be set by hand and usual time steps, then nothing undefined happens — no colour or renderer is missing when the scene is drawn, and frames are not
counted modulo zero — the controls show the settings in force, the steps between frames are right for the frame rate shown, and whenever the window system asks for a picture the program
draws the current state. -/
theorem C78_defined_partial (v : Frontend St C Mem S k) (ht : Tame v) (hv : Sound v) (hp : KeepsSettings v.program) (state : St) (mem : Mem) (endTime nan : F64) (name : Bytes)
    (file : File St) (es : List (Input St)) (hempty : v.bodies state = 0 ∧ v.shapes state = [] ∧ v.shapeOf state = []) (hfps : 1 ≤ v.initialFps ∧ v.initialFps ≤ 1000)
    (hfile : (Input.openFile name file).Sane v.program ∧ file.WellFormed v ∧ file.Usual ∧ file.FpsInRange)
    (hes : ∀ e ∈ es, e.Sane v.program ∧ e.WellFormed v ∧ e.Usual ∧ e.FpsInRange) :
    session v state mem endTime nan name file es ≠ .ub ∧
    ∀ g, session v state mem endTime nan name file es = .ok g → g.finished = false →
      Consistent g ∧ Paced g ∧ ∃ g', handle v .expose g = .ok g' ∧ Current v g' := by
  obtain ⟨h1, h2⟩ := healthy_session (mem := mem) (endTime := endTime) (nan := nan) ht hv hp hempty hfps hfile hes
  refine ⟨h1, fun g h hf => ?_⟩
  have hg := h2 g h hf
  obtain ⟨g', hg1, hg2⟩ := paint_drawable hg.drawable
  exact ⟨hg.consistent, hg.paced, g', by rw [handle.eq_def, if_neg (by rw [hf]; decide)]; exact hg1, hg2⟩

/-- **C78, pictures.** In the same circumstances: once the screen shows the current state, it keeps showing the current state, whatever the user does, unless pictures are drawn at the frame
rate only; then it does at least at every step that is a frame. -/
theorem C78_picture_partial (v : Frontend St C Mem S k) (ht : Tame v) (hv : Sound v) (hp : KeepsSettings v.program) (state : St) (mem : Mem) (endTime nan : F64) (name : Bytes)
    (file : File St) (es : List (Input St)) (hempty : v.bodies state = 0 ∧ v.shapes state = [] ∧ v.shapeOf state = []) (hfps : 1 ≤ v.initialFps ∧ v.initialFps ≤ 1000)
    (hfile : (Input.openFile name file).Sane v.program ∧ file.WellFormed v ∧ file.Usual ∧ file.FpsInRange)
    (hes : ∀ e ∈ es, e.Sane v.program ∧ e.WellFormed v ∧ e.Usual ∧ e.FpsInRange) (g : Gui St C Mem S k)
    (h : session v state mem endTime nan name file es = .ok g) (hf : g.finished = false) (hc : Current v g)
    (e : Input St) (he : e.Sane v.program ∧ e.WellFormed v ∧ e.Usual ∧ e.FpsInRange) (g' : Gui St C Mem S k) (h' : handle v e g = .ok g') (hf' : g'.finished = false)
    (hr : g.renderAtFps = false ∨ g'.input.iteration % g'.stepsPerFrame = 0) : Current v g' :=
  (((healthy_handle ht hv hp ((healthy_session ht hv hp hempty hfps hfile hes).2 g h hf) hf he.1 he.2.1 he.2.2.1 he.2.2.2).2 g' h' hf').2 hc hr)

end

end Scisim.Viewer
