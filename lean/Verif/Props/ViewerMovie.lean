import Verif.Lemmas.Digits
import Verif.Props.Viewer
/-!
# C77: movies
-/

namespace Scisim.Viewer

section
variable {St C Mem S : Type} {k : Nat} [AddCommGroup S] [LinearOrder S]

/-- What a movie that was started at `g` should consist of after `n` steps, with `s` steps per frame: frame 0 is what was on the screen; frame `m` is a picture of the
simulation at the `m`-th multiple of `s` after the start, in the file with that number. -/
def IsMovie (v : Frontend St C Mem S k) (g : Gui St C Mem S k) (dir : Bytes) (s n : Nat) (l : List (Bytes × Option (Picture St S k))) : Prop :=
  l.length = (g.input.iteration.toNat + n) / s - g.input.iteration.toNat / s + 1 ∧
  l[0]? = some (frameName dir 0, g.buffer) ∧
  ∀ m f, 0 < m → l[m]? = some f → f.1 = frameName dir (UInt32.ofNat m) ∧
    ∃ p x, f.2 = some p ∧ trajectory v.program g.input ((g.input.iteration.toNat / s + m) * s - g.input.iteration.toNat) = .ok x ∧
      x.iteration.toNat = (g.input.iteration.toNat / s + m) * s ∧ p.Shows x

/-- A running movie -/
structure Rolling (v : Frontend St C Mem S k) (g : Gui St C Mem S k) (dir : Bytes) (n : Nat) (y : Gui St C Mem S k) : Prop where
  movieDir : y.movieDir = dir
  steps : y.stepsPerFrame = g.stepsPerFrame
  frame : y.outputFrame = UInt32.ofNat ((g.input.iteration.toNat + n) / g.stepsPerFrame.toNat - g.input.iteration.toNat / g.stepsPerFrame.toNat + 1)
  state : ∃ x, trajectory v.program g.input n = .ok x ∧ y.input.iteration = x.iteration ∧ (y.finished = false → y.input = x)
  files : ∃ l, y.files = g.files ++ l ∧ IsMovie v g dir g.stepsPerFrame.toNat n l

omit [AddCommGroup S] [LinearOrder S] in
theorem trajectory_iteration {p : Program (World St C Mem)} {i : StepInput (World St C Mem)} : ∀ {n x}, trajectory p i n = .ok x →
    i.iteration.toNat + n < 4294967296 → x.iteration.toNat = i.iteration.toNat + n
  | 0, x, h, _ => by cases h; rfl
  | n + 1, x, h, hn => by
    obtain ⟨y, h1, h2⟩ := Outcome.bind_ok_iff.mp h
    have := trajectory_iteration h1 (by omega)
    obtain ⟨r, -, h3⟩ := Outcome.bind_ok_iff.mp h2
    cases h3
    simp only [UInt32.toNat_add]
    rw [this]
    have : (1 : UInt32).toNat = 1 := rfl
    rw [this]
    omega

omit [AddCommGroup S] [LinearOrder S] in
theorem saveFrame_files (g : Gui St C Mem S k) : (saveFrame g).files = g.files ++ [(frameName g.movieDir g.outputFrame, g.buffer)] := rfl

omit [AddCommGroup S] [LinearOrder S] in
/-- The end of a step while a movie is exported -/
theorem show_movie {v : Frontend St C Mem S k} {g g' : Gui St C Mem S k} (h : show_ v g = .ok g') (hd : g.movieDir ≠ []) :
    g.stepsPerFrame ≠ 0 ∧ g'.movieDir = g.movieDir ∧ g'.stepsPerFrame = g.stepsPerFrame ∧
    (g.input.iteration % g.stepsPerFrame = 0 → g'.outputFrame = g.outputFrame + 1 ∧
      ∃ p : Picture St S k, p.Shows g.input ∧ g'.files = g.files ++ [(frameName g.movieDir g.outputFrame, some p)]) ∧
    (g.input.iteration % g.stepsPerFrame ≠ 0 → g'.outputFrame = g.outputFrame ∧ g'.files = g.files) := by
  obtain ⟨g1, h1, h2⟩ := Outcome.bind_ok_iff.mp h
  have hpaint : ∀ {y : Gui St C Mem S k}, paint v g = .ok y → y.movieDir = g.movieDir ∧ y.stepsPerFrame = g.stepsPerFrame ∧ y.outputFrame = g.outputFrame ∧
      y.files = g.files ∧ y.input = g.input ∧ ∃ p : Picture St S k, y.buffer = some p ∧ p.Shows g.input := by
    intro y hy
    rw [paint_ok hy]
    refine ⟨rfl, rfl, rfl, rfl, rfl, _, rfl, rfl, ?_⟩
    intro q hq
    simp only at hq
    split at hq
    · cases hq; rfl
    · cases hq
  have e1 : g1.movieDir = g.movieDir ∧ g1.stepsPerFrame = g.stepsPerFrame ∧ g1.outputFrame = g.outputFrame ∧ g1.files = g.files ∧ g1.input = g.input ∧
      (g.input.iteration % g.stepsPerFrame = 0 → ∃ p : Picture St S k, g1.buffer = some p ∧ p.Shows g.input) := by
    split at h1
    · obtain ⟨b, hb, h1⟩ := Outcome.bind_ok_iff.mp h1
      unfold onFrame at hb
      split at hb
      · cases hb
      · cases hb
        split at h1
        · obtain ⟨a1, a2, a3, a4, a5, a6⟩ := hpaint h1
          exact ⟨a1, a2, a3, a4, a5, fun _ => a6⟩
        · rename_i hz
          cases h1
          exact ⟨rfl, rfl, rfl, rfl, rfl, fun hz' => absurd (by simpa using hz') hz⟩
    · obtain ⟨a1, a2, a3, a4, a5, a6⟩ := hpaint h1
      exact ⟨a1, a2, a3, a4, a5, fun _ => a6⟩
  obtain ⟨a1, a2, a3, a4, a5, a6⟩ := e1
  rw [a1, if_pos hd] at h2
  obtain ⟨b, hb, h2⟩ := Outcome.bind_ok_iff.mp h2
  unfold onFrame at hb
  rw [a2, a5] at hb
  split at hb
  · cases hb
  · rename_i hs
    cases hb
    cases h2
    refine ⟨hs, ?_, ?_, ?_, ?_⟩
    · split <;> exact a1
    · split <;> exact a2
    · intro hz
      rw [if_pos (by simpa using hz)]
      obtain ⟨p, hp1, hp2⟩ := a6 hz
      refine ⟨by show g1.outputFrame + 1 = _; rw [a3], p, hp2, ?_⟩
      rw [saveFrame_files, a4, a1, a3, hp1]
    · intro hz
      rw [if_neg (by simpa using hz)]
      exact ⟨a3, a4⟩

omit [AddCommGroup S] [LinearOrder S] in
theorem refresh_movie {v : Frontend St C Mem S k} {g g' : Gui St C Mem S k} (h : refresh v g = .ok g') :
    g'.movieDir = g.movieDir ∧ g'.stepsPerFrame = g.stepsPerFrame ∧ g'.outputFrame = g.outputFrame ∧ g'.files = g.files := by
  unfold refresh at h
  simp only at h
  split at h
  · split at h
    · split at h
      · cases h
      · cases h; exact ⟨rfl, rfl, rfl, rfl⟩
    · cases h; exact ⟨rfl, rfl, rfl, rfl⟩
  · cases h; exact ⟨rfl, rfl, rfl, rfl⟩

theorem ofNat_succ32 (n : Nat) : UInt32.ofNat n + 1 = UInt32.ofNat (n + 1) := by
  rw [UInt32.ofNat_add]; rfl

theorem rolling_step {v : Frontend St C Mem S k} (hp : KeepsSettings v.program) {g y y' : Gui St C Mem S k} {dir : Bytes} (hd : dir ≠ []) {n : Nat}
    (hc : InputComplete v.program g.input) (hn : g.input.iteration.toNat + n + 1 < 4294967296) (hs : g.stepsPerFrame ≠ 0) (hy : Rolling v g dir n y)
    (hf : y.finished = false) (h : step v y = .ok y') : Rolling v g dir n y' ∨ Rolling v g dir (n + 1) y' := by
  obtain ⟨r1, r2, r3, ⟨x, hx, hxi, hxe⟩, l, hl, hm⟩ := hy
  have hxe := hxe hf
  have hcy : InputComplete v.program y.input := by rw [hxe]; exact (trajectory_settings hp hx).complete hc
  by_cases hr : v.program.reached y.input.dtNum y.input.dtDen y.endTime y.input.iteration = true
  · left
    rw [step, if_pos hr] at h
    obtain ⟨w, -, h⟩ := Outcome.bind_ok_iff.mp h
    cases h
    exact ⟨r1, r2, r3, ⟨x, hx, hxi, fun hff => (by cases hff)⟩, l, hl, hm⟩
  · right
    obtain ⟨hk, hrun⟩ := kind_complete hcy
    rw [step, if_neg hr, if_neg hk] at h
    obtain ⟨r, h1, h⟩ := Outcome.bind_ok_iff.mp h
    obtain ⟨g2, h2, h3⟩ := Outcome.bind_ok_iff.mp h
    have e2 := (refresh_core h2).1
    have e3 := (show_core h3).1
    obtain ⟨m1, m2, m3, m4⟩ := refresh_movie h2
    have hadv : advance v.program y.input = .ok { y.input with sim := r.1, impactFrictionMap := r.2, iteration := y.input.iteration + 1 } := by
      rw [advance, (hrun r).mp h1]; rfl
    have htr : trajectory v.program g.input (n + 1) = .ok { y.input with sim := r.1, impactFrictionMap := r.2, iteration := y.input.iteration + 1 } := by
      rw [trajectory, hx, ← hxe]; exact hadv
    have hi2 : g2.input = { y.input with sim := r.1, impactFrictionMap := r.2, iteration := y.input.iteration + 1 } := Core.input_eq e2
    have hi3 : y'.input = { y.input with sim := r.1, impactFrictionMap := r.2, iteration := y.input.iteration + 1 } := (Core.input_eq e3).trans hi2
    have hit : g2.input.iteration.toNat = g.input.iteration.toNat + (n + 1) := by
      rw [hi2]; exact trajectory_iteration htr (by omega)
    have hsn : 0 < g.stepsPerFrame.toNat := by
      rcases Nat.eq_zero_or_pos g.stepsPerFrame.toNat with h0 | h0
      · exact absurd (UInt32.toNat_inj.mp h0) hs
      · exact h0
    obtain ⟨-, q1, q2, q3, q4⟩ := show_movie h3 (by rw [m1]; show y.movieDir ≠ []; rw [r1]; exact hd)
    have hmod : (g2.input.iteration % g2.stepsPerFrame = 0) ↔ g.stepsPerFrame.toNat ∣ g.input.iteration.toNat + n + 1 := by
      rw [m2, ← UInt32.toNat_inj, UInt32.toNat_mod, hit]
      show (g.input.iteration.toNat + (n + 1)) % y.stepsPerFrame.toNat = 0 ↔ _
      rw [r2, Nat.dvd_iff_mod_eq_zero, Nat.add_assoc]
    have hdir : g2.movieDir = dir := m1.trans r1
    have hfr : g2.outputFrame = UInt32.ofNat ((g.input.iteration.toNat + n) / g.stepsPerFrame.toNat - g.input.iteration.toNat / g.stepsPerFrame.toNat + 1) := m3.trans r3
    have hst : y'.stepsPerFrame = g.stepsPerFrame := q2.trans (m2.trans r2)
    have hmono : g.input.iteration.toNat / g.stepsPerFrame.toNat ≤ (g.input.iteration.toNat + n) / g.stepsPerFrame.toNat := Nat.div_le_div_right (by omega)
    obtain ⟨hl1, hl2, hl3⟩ := hm
    refine ⟨q1.trans hdir, hst, ?_, ⟨_, htr, by rw [hi3], fun _ => hi3⟩, ?_⟩
    · by_cases hz : g2.input.iteration % g2.stepsPerFrame = 0
      · have hdv := hmod.mp hz
        rw [(q3 hz).1, hfr, ofNat_succ32]
        congr 1
        rw [← Nat.add_assoc, Nat.succ_div_of_dvd hdv]
        omega
      · have hdv : ¬ g.stepsPerFrame.toNat ∣ g.input.iteration.toNat + n + 1 := fun hh => hz (hmod.mpr hh)
        rw [(q4 hz).1, hfr]
        congr 1
        rw [← Nat.add_assoc, Nat.succ_div_of_not_dvd hdv]
    · by_cases hz : g2.input.iteration % g2.stepsPerFrame = 0
      · have hdv := hmod.mp hz
        obtain ⟨p, hp1, hp2⟩ := (q3 hz).2
        have hlen : l.length = (g.input.iteration.toNat + n) / g.stepsPerFrame.toNat - g.input.iteration.toNat / g.stepsPerFrame.toNat + 1 := hl1
        have hsucc : (g.input.iteration.toNat + (n + 1)) / g.stepsPerFrame.toNat = (g.input.iteration.toNat + n) / g.stepsPerFrame.toNat + 1 := by
          rw [← Nat.add_assoc, Nat.succ_div_of_dvd hdv]
        refine ⟨l ++ [(frameName dir (UInt32.ofNat l.length), some p)], ?_, ?_, ?_, ?_⟩
        · rw [hp2, m4, hdir, hfr, hlen]
          show y.files ++ _ = _
          rw [hl, List.append_assoc]
        · rw [List.length_append, List.length_singleton, hlen, hsucc]; omega
        · rw [List.getElem?_append_left (by omega)]; exact hl2
        · intro m f hm0 hmf
          rcases Nat.lt_or_ge m l.length with hlt | hge
          · rw [List.getElem?_append_left hlt] at hmf
            exact hl3 m f hm0 hmf
          · rw [List.getElem?_append_right hge] at hmf
            have hm' : m = l.length := by
              rcases Nat.eq_zero_or_pos (m - l.length) with h0 | h0
              · omega
              · rw [List.getElem?_eq_none (by simp; omega)] at hmf; cases hmf
            subst hm'
            rw [Nat.sub_self] at hmf
            cases hmf
            have hmul : (g.input.iteration.toNat / g.stepsPerFrame.toNat + l.length) * g.stepsPerFrame.toNat = g.input.iteration.toNat + (n + 1) := by
              rw [show g.input.iteration.toNat / g.stepsPerFrame.toNat + l.length = (g.input.iteration.toNat + (n + 1)) / g.stepsPerFrame.toNat by rw [hsucc, hlen]; omega]
              exact Nat.div_mul_cancel (by rw [← Nat.add_assoc]; exact hdv)
            refine ⟨rfl, p, g2.input, rfl, ?_, ?_, hp1⟩
            · rw [hmul, Nat.add_sub_cancel_left, htr, hi2]
            · rw [hmul, hit]
      · have hdv : ¬ g.stepsPerFrame.toNat ∣ g.input.iteration.toNat + n + 1 := fun hh => hz (hmod.mpr hh)
        refine ⟨l, ?_, ?_, hl2, hl3⟩
        · rw [(q4 hz).2, m4]; exact hl
        · rw [hl1, ← Nat.add_assoc, Nat.succ_div_of_not_dvd hdv]

theorem rolling_handle {v : Frontend St C Mem S k} (hp : KeepsSettings v.program) {g y y' : Gui St C Mem S k} {dir : Bytes} (hd : dir ≠ []) {n : Nat} {e : Input St}
    (he : e.Quiet) (hc : InputComplete v.program g.input) (hn : g.input.iteration.toNat + n + 1 < 4294967296) (hs : g.stepsPerFrame ≠ 0) (hy : Rolling v g dir n y)
    (h : handle v e y = .ok y') : Rolling v g dir n y' ∨ Rolling v g dir (n + 1) y' := by
  rw [handle.eq_def] at h
  cases hf : y.finished with
  | true => rw [hf, if_pos rfl] at h; cases h; exact Or.inl hy
  | false =>
    rw [hf, if_neg (by decide)] at h
    have same : ∀ {z : Gui St C Mem S k}, z.input = y.input → z.movieDir = y.movieDir → z.stepsPerFrame = y.stepsPerFrame → z.outputFrame = y.outputFrame → z.files = y.files →
        Rolling v g dir n z := by
      intro z h1 h2 h3 h4 h5
      obtain ⟨r1, r2, r3, ⟨x, hx, hxi, hxe⟩, r5⟩ := hy
      have hi := h1
      exact ⟨h2.trans r1, h3.trans r2, h4.trans r3, ⟨x, hx, by rw [hi]; exact hxi, fun _ => by rw [hi]; exact hxe hf⟩, by rw [h5]; exact r5⟩
    cases e with
    | step => exact rolling_step hp hd hc hn hs hy hf h
    | idle =>
      simp only at h
      split at h
      · exact rolling_step hp hd hc hn hs hy hf h
      · cases h; exact Or.inl hy
    | toggleSimulate => cases h; exact Or.inl (same rfl rfl rfl rfl rfl)
    | toggleRender => cases h; left; unfold setRender; split <;> exact same rfl rfl rfl rfl rfl
    | toggleLock => cases h; left; unfold setLock; split <;> exact same rfl rfl rfl rfl rfl
    | toggleHud => left; rw [paint_ok h]; exact same rfl rfl rfl rfl rfl
    | expose => left; rw [paint_ok h]; exact same rfl rfl rfl rfl rfl
    | reset => exact he.elim
    | openFile _ _ => exact he.elim
    | reload _ => exact he.elim
    | setFps _ => exact he.elim
    | toggleMovie _ => exact he.elim
    | exportMovie _ => exact he.elim
    | exportImage _ => exact he.elim

theorem rolling_run {v : Frontend St C Mem S k} (hp : KeepsSettings v.program) {g : Gui St C Mem S k} {dir : Bytes} (hd : dir ≠ []) (hc : InputComplete v.program g.input)
    (hs : g.stepsPerFrame ≠ 0) : ∀ {es : List (Input St)} {n : Nat} {y y' : Gui St C Mem S k}, (∀ e ∈ es, e.Quiet) →
    g.input.iteration.toNat + n + es.length < 4294967296 → Rolling v g dir n y → runEvents v es y = .ok y' → ∃ n', n' ≤ n + es.length ∧ Rolling v g dir n' y'
  | [], n, y, y', _, _, hy, h => by cases h; exact ⟨n, by simp, hy⟩
  | e :: es, n, y, y', he, hn, hy, h => by
    obtain ⟨y1, h1, h2⟩ := Outcome.bind_ok_iff.mp h
    rw [List.length_cons] at hn ⊢
    rcases rolling_handle hp hd (he e List.mem_cons_self) hc (by omega) hs hy h1 with hy1 | hy1
    · obtain ⟨n', hle, hr⟩ := rolling_run hp hd hc hs (fun e' he' => he e' (List.mem_cons_of_mem _ he')) (by omega) hy1 h2
      exact ⟨n', by omega, hr⟩
    · obtain ⟨n', hle, hr⟩ := rolling_run hp hd hc hs (fun e' he' => he e' (List.mem_cons_of_mem _ he')) (by omega) hy1 h2
      exact ⟨n', by omega, hr⟩

/-- **C77.** When the user starts a movie, by the box or by the menu, and then lets the simulation run, step by step or by itself — they may change how and when pictures are drawn, but not the
scene, the frame rate or the movie — the images saved are one numbered sequence without gaps or repetitions: frame 0 is the picture on the screen when the movie was started, frame `m` shows
the state of the simulation, and its time label the time, of the `m`-th multiple of the steps per frame after that. Nothing else is saved, and none is missing up to the last step taken (`n`
steps in all). -/
theorem C77_movie (v : Frontend St C Mem S k) (hp : KeepsSettings v.program) (g g1 g' : Gui St C Mem S k) (dir : Bytes) (hd : dir ≠ [])
    (hc : InputComplete v.program g.input) (hs : g.stepsPerFrame ≠ 0) (hf : g.finished = false)
    (h1 : (g.movieBox = false ∧ handle v (.toggleMovie dir) g = .ok g1) ∨ handle v (.exportMovie dir) g = .ok g1)
    (es : List (Input St)) (he : ∀ e ∈ es, e.Quiet) (hn : g.input.iteration.toNat + es.length < 4294967296) (h : runEvents v es g1 = .ok g') :
    ∃ n l, n ≤ es.length ∧ g'.files = g.files ++ l ∧ IsMovie v g dir g.stepsPerFrame.toNat n l ∧ g'.input.iteration.toNat = g.input.iteration.toNat + n := by
  have hstart : ∀ (y : Gui St C Mem S k), y.core = g.core → y.stepsPerFrame = g.stepsPerFrame → y.files = g.files → y.buffer = g.buffer → g1 = checkMovie dir y →
      Rolling v g dir 0 g1 := by
    intro y e1 e2 e3 e4 e5
    rw [e5, checkMovie, if_pos hd, setMovieDir]
    simp only [if_pos hd]
    refine ⟨rfl, e2, by simp [saveFrame, saveScreenshot]; try rfl, ⟨g.input, rfl, ?_, fun _ => Core.input_eq e1⟩, [(frameName dir 0, y.buffer)], ?_, ?_⟩
    · show y.input.iteration = _; rw [Core.input_eq e1]
    · show y.files ++ _ = _; rw [e3]
    · refine ⟨by simp, by simp [e4], ?_⟩
      intro m f hm hf
      rw [List.getElem?_eq_none (by simp; omega)] at hf; cases hf
  have hr : Rolling v g dir 0 g1 := by
    rcases h1 with ⟨hb, h1⟩ | h1
    · rw [handle.eq_def, hf, if_neg (by decide)] at h1
      simp only [hb] at h1
      exact hstart g rfl rfl rfl rfl (Outcome.ok.inj h1).symm
    · rw [handle.eq_def, hf, if_neg (by decide)] at h1
      refine hstart (uncheckMovie g) (uncheckMovie_core g).1 ?_ ?_ ?_ (Outcome.ok.inj h1).symm
      all_goals (unfold uncheckMovie; split <;> rfl)
  obtain ⟨n, hle, hroll⟩ := rolling_run hp hd hc hs he (by omega) hr h
  obtain ⟨l, hl, hm⟩ := hroll.files
  obtain ⟨x, hx, hxi, -⟩ := hroll.state
  exact ⟨n, l, by omega, hl, hm, by rw [hxi]; exact trajectory_iteration hx (by omega)⟩

omit [AddCommGroup S] [LinearOrder S] in
/-- **C77, even spacing.** If the movie is started at a multiple of the steps per frame, for instance before the first step, frame `m` shows the state after `m` times the steps per frame
steps. -/
theorem C77_even (v : Frontend St C Mem S k) (g : Gui St C Mem S k) (dir : Bytes) (s n : Nat) (l : List (Bytes × Option (Picture St S k)))
    (h : IsMovie v g dir s n l) (hs : s ∣ g.input.iteration.toNat) (m : Nat) (hm : 0 < m) (f : Bytes × Option (Picture St S k)) (hf : l[m]? = some f) :
    f.1 = frameName dir (UInt32.ofNat m) ∧ ∃ p x, f.2 = some p ∧ trajectory v.program g.input (m * s) = .ok x ∧ p.Shows x ∧
      x.iteration.toNat = g.input.iteration.toNat + m * s := by
  obtain ⟨h1, p, x, h2, h3, h4, h5⟩ := h.2.2 m f hm hf
  have e : (g.input.iteration.toNat / s + m) * s = g.input.iteration.toNat + m * s := by rw [Nat.add_mul, Nat.div_mul_cancel hs]
  rw [e] at h3 h4
  rw [Nat.add_sub_cancel_left] at h3
  exact ⟨h1, p, x, h2, h3, h5, h4⟩

/-- **C77, names.** The files are named in the order of the frames (and are of equal length), so that sorting by name is sorting by time. -/
theorem C77_names (dir : Bytes) (m n : UInt32) (h : m < n) : frameName dir m < frameName dir n ∧ (frameName dir m).length = (frameName dir n).length := by
  have hm : computeNumDigits m.toNat ≤ 10 := (computeNumDigits_le_iff _ _ (by decide)).mpr (by have := m.toNat_lt; omega)
  have hn : computeNumDigits n.toNat ≤ 10 := (computeNumDigits_le_iff _ _ (by decide)).mpr (by have := n.toNat_lt; omega)
  constructor
  · unfold frameName
    rw [List.append_assoc, List.append_assoc _ (padded 10 n.toNat)]
    refine lex_append_left _ (lex_append_right (padded_lt (by decide) h hn) ?_ _ _)
    exact (padded_length _ _ hm).trans (padded_length _ _ hn).symm
  · simp only [frameName, List.length_append, padded_length _ _ hm, padded_length _ _ hn]

/-- **C77, frame rate.** If the frame rate is a whole number of steps apart, frames are exactly `1 / fps` apart in simulated time; otherwise every step is a frame (the program warns on
the console). Between, the only case left out is a number of steps per frame that does not fit in 32 bits. -/
theorem C77_rate (dt : Rat64) (q : ℚ) (hdt : Represents dt q) (hq : 0 < q) (fps : Nat) (hf : fps ≠ 0) (n : UInt32) (h : stepsPerFrameOf dt fps = .ok n)
    (hfit : 1 / (q * fps) < 4294967296) :
    ((∃ j : ℕ, (j : ℚ) * q * fps = 1) → (n.toNat : ℚ) * q = 1 / fps) ∧ ((¬ ∃ j : ℕ, (j : ℚ) * q * fps = 1) → n = 1) := by
  have hfq : (0 : ℚ) < (fps : ℚ) := by exact_mod_cast Nat.pos_of_ne_zero hf
  unfold stepsPerFrameOf at h
  obtain ⟨d, hd, h⟩ := Outcome.bind_ok_iff.mp h
  have h1 := C01_mulInt hdt hd
  rw [Int.cast_natCast] at h1
  have hdq : (0 : ℚ) < q * fps := by positivity
  split at h
  · rename_i hlt
    cases h
    have hbig : 1 < q * fps := by
      have hdp : (0 : ℚ) < (d.den : ℚ) := by exact_mod_cast (by rw [h1.2]; exact_mod_cast Rat.den_pos _ : (0 : ℤ) < d.den)
      have he : q * fps = d.num / d.den := by rw [h1.1, h1.2]; exact (Rat.num_div_den _).symm
      rw [he, lt_div_iff₀ hdp, one_mul]
      exact_mod_cast hlt
    refine ⟨?_, fun _ => rfl⟩
    rintro ⟨j, hj⟩
    exfalso
    rw [mul_assoc] at hj
    rcases Nat.eq_zero_or_pos j with h0 | h0
    · rw [h0] at hj; simp at hj
    · have : (1 : ℚ) ≤ j := by exact_mod_cast h0
      nlinarith
  · by_cases hex : ∃ j : ℕ, (j : ℚ) * q * fps = 1
    · refine ⟨fun _ => ?_, fun hno => absurd hex hno⟩
      obtain ⟨r, hr, h⟩ := Outcome.bind_ok_iff.mp h
      have h2 := C01_intDiv h1 hdq.ne' hr
      obtain ⟨j, hj⟩ := hex
      have hint : r.isInteger = true := by
        rw [(C01_predicates h2).2.2]
        refine ⟨j, ?_⟩
        rw [Int.cast_one, Int.cast_natCast, div_eq_iff hdq.ne', ← mul_assoc, hj]
      rw [if_pos hint] at h
      have hsame : stepsPerSaveOf dt fps = .ok n := by
        rw [stepsPerSaveOf, if_pos hf]
        refine Outcome.bind_ok_iff.mpr ⟨d, hd, Outcome.bind_ok_iff.mpr ⟨r, hr, ?_⟩⟩
        rw [if_pos hint]; exact h
      exact C11_output_rate dt q hdt hq fps hf n hsame hfit
    · refine ⟨fun hh => absurd hh hex, fun _ => ?_⟩
      obtain ⟨r, hr, h⟩ := Outcome.bind_ok_iff.mp h
      have h2 := C01_intDiv h1 hdq.ne' hr
      split at h
      · rename_i hint
        exfalso
        obtain ⟨j, hj⟩ := ((C01_predicates h2).2.2).mp hint
        rw [Int.cast_one] at hj
        have hjp : (0 : ℚ) < j := by rw [← hj]; positivity
        have hj0 : 0 < j := by exact_mod_cast hjp
        refine hex ⟨j.toNat, ?_⟩
        have : ((j.toNat : ℕ) : ℚ) = (j : ℚ) := by
          have h3 : ((j.toNat : ℕ) : ℤ) = j := Int.toNat_of_nonneg (by omega)
          exact_mod_cast congrArg (Int.cast (R := ℚ)) h3
        rw [this, ← hj]
        field_simp
      · exact (Outcome.ok.inj h).symm

end

end Scisim.Viewer
