import Verif.Lemmas.Viewer
import Verif.Props.CLI
/-!
# C76: the interactive programs compute what the command line programs compute
-/

namespace Scisim.Viewer

section
variable {St C Mem S : Type} {k : Nat} [AddCommGroup S] [LinearOrder S]

/-- The part of the claim about one moment -/
structure AtStep (v : Frontend St C Mem S k) (u : Session St) (s : Scene St) (x : Core St C Mem S k) : Prop where
  complete : s.Complete v.program
  opened : 0 < u.opened
  state : ∃ c mem w it, (v.clearsCache = true ∨ u.opened = 1 → c = v.noCache) ∧ x.sim0 = (s.state, c) ∧
    v.startOfSim s.scriptModule ⟨s.state, c, mem⟩ 0 = .ok (w, it) ∧ trajectory v.program (s.begin w it) u.steps = .ok x.input ∧
    ∀ i, IsGreatest (Changes v (s.begin w it) s.state u.steps i) (x.drift i)
  endTime : x.endTime = s.endTime
  measure0 : x.measure0 = v.measure s.state

/-- The invariant -/
structure Inv (v : Frontend St C Mem S k) (u : Session St) (x : Core St C Mem S k) (simulate : Bool) (name : Bytes) : Prop where
  simulate : simulate = u.simulating
  named : u.scene.isSome = true ↔ name ≠ []
  scene : ∀ s, u.scene = some s → AtStep v u s x
  none : u.scene = none → u.opened = 0 ∧ x.input.integrator = .null ∧ x.input.impactOp = .null ∧ x.input.impactMap = .null ∧ x.input.frictionSolver = .null ∧
    x.input.impactFrictionMap = .null ∧ x.input.sim.cache = v.noCache ∧ x.sim0.2 = v.noCache ∧ x.input.scriptModule = []

theorem changes_zero (v : Frontend St C Mem S k) (b : StepInput (World St C Mem)) (s0 : St) (i : Fin k) : IsGreatest (Changes v b s0 0 i) 0 :=
  ⟨Or.inl rfl, by rintro d (rfl | ⟨j, x, h1, h2, -⟩) <;> [exact le_refl _; omega]⟩

theorem changes_succ {v : Frontend St C Mem S k} {b x : StepInput (World St C Mem)} {s0 : St} {i : Fin k} {n : Nat} {d : S}
    (h : IsGreatest (Changes v b s0 n i) d) (hx : trajectory v.program b (n + 1) = .ok x) :
    IsGreatest (Changes v b s0 (n + 1) i) (max d |v.measure s0 i - v.measure x.sim.state i|) := by
  constructor
  · rcases le_total d |v.measure s0 i - v.measure x.sim.state i| with hle | hle
    · rw [max_eq_right hle]
      exact Or.inr ⟨n + 1, x, by omega, le_refl _, hx, rfl⟩
    · rw [max_eq_left hle]
      rcases h.1 with h1 | ⟨j, y, h1, h2, h3, h4⟩
      · exact Or.inl h1
      · exact Or.inr ⟨j, y, h1, by omega, h3, h4⟩
  · rintro e (rfl | ⟨j, y, h1, h2, h3, h4⟩)
    · exact le_max_of_le_left (h.2 (Or.inl rfl))
    · rcases Nat.lt_or_ge n j with hj | hj
      · have : j = n + 1 := by omega
        subst this
        rw [hx] at h3
        cases h3
        rw [h4]
        exact le_max_right _ _
      · exact le_max_of_le_left (h.2 (Or.inr ⟨j, y, h1, hj, h3, h4⟩))

theorem inv_opens {v : Frontend St C Mem S k} {u : Session St} {g g' : Gui St C Mem S k} {name : Bytes} {f : File St} {render : Bool}
    (hg : Inv v u g.core g.simulate g.sceneName) (hf : ∀ s, f = .scene s → name ≠ [] ∧ s.Complete v.program) (h : openScene v name f render g = .ok g') :
    Inv v (u.opens f) g'.core g'.simulate g'.sceneName := by
  cases f with
  | missing => cases h; exact hg
  | refused => cases h; exact hg
  | scene s =>
    obtain ⟨hn, hc⟩ := hf s rfl
    obtain ⟨mem, r, h1, h2, h3, h4⟩ := openScene_ok h
    refine ⟨h3, ?_, ?_, ?_⟩
    · simp [Session.opens, h4, hn]
    · rintro s' hs'
      cases hs'
      refine ⟨hc, Nat.succ_pos _, ⟨_, mem, r.1, r.2, ?_, ?_, h1, ?_, ?_⟩, ?_, ?_⟩
      · rintro (h5 | h5)
        · rw [h5]; rfl
        · have h0 : u.opened = 0 := by simpa [Session.opens] using h5
          have hns : u.scene = none := by
            cases hu : u.scene with
            | none => rfl
            | some s' => have := (hg.scene s' hu).opened; omega
          split
          · rfl
          · exact (hg.none hns).2.2.2.2.2.2.1
      · rw [h2]
      · rw [h2]; rfl
      · intro i
        rw [h2]
        exact changes_zero _ _ _ _
      · rw [h2]
      · rw [h2]
    · intro h5; cases h5

theorem inv_stepped {v : Frontend St C Mem S k} (hp : KeepsSettings v.program) {u : Session St} {g g' : Gui St C Mem S k}
    (hg : Inv v u g.core g.simulate g.sceneName) (h : step v g = .ok g') (hf : g'.finished = false) :
    Inv v u.stepped g'.core g'.simulate g'.sceneName := by
  cases hu : u.scene with
  | none =>
    obtain ⟨h0, h1, h2, h3, h4, h5, h6, h7, h8⟩ := hg.none hu
    have hk : kindOf v.program.format.hasImpactMap g.input = .nothing := if_pos ⟨h1, h2, h4, fun _ => ⟨h3, h5⟩⟩
    unfold step at h
    split at h
    · obtain ⟨w, -, h⟩ := Outcome.bind_ok_iff.mp h
      cases h
      exact absurd hf (by simp)
    · cases h
      exact ⟨hg.simulate, hg.named, fun s hs => (by rw [Session.stepped, hu] at hs; cases hs), hg.none⟩
  | some s =>
    obtain ⟨hc, ho, ⟨c, mem, w, it, h1, h2, h3, h4, h5⟩, h6, h7⟩ := hg.scene s hu
    have hset : SameSettings g.input (s.begin w it) := trajectory_settings hp h4
    have hcomp : InputComplete v.program g.input := hset.complete hc.1
    obtain ⟨-, x, hx, e1, e2, e3⟩ := step_ok h hf hcomp
    have htr : trajectory v.program (s.begin w it) (u.steps + 1) = .ok x := by
      rw [trajectory, h4]; exact hx
    refine ⟨e2.trans hg.simulate, by rw [e3]; exact hg.named, ?_, ?_⟩
    · intro s' hs'
      rw [Session.stepped, hu] at hs'
      cases hs'
      refine ⟨hc, ho, ⟨c, mem, w, it, h1, by rw [e1]; exact h2, h3, by rw [e1]; exact htr, ?_⟩, by rw [e1]; exact h6, by rw [e1]; exact h7⟩
      intro i
      rw [e1]
      have := changes_succ (h5 i) htr
      rw [show v.measure s.state i = g.measure0 i from (congrFun h7 i).symm] at this
      exact this
    · intro h8; rw [Session.stepped, hu] at h8; cases h8

theorem inv_reset {v : Frontend St C Mem S k} (hp : KeepsSettings v.program) (hno : NoScript v) {u : Session St} {g g' : Gui St C Mem S k}
    (hg : Inv v u g.core g.simulate g.sceneName) (h : resetWidget v g = .ok g') :
    Inv v { u with steps := 0 } g'.core g'.simulate g'.sceneName := by
  obtain ⟨r, hr, e1, e2, e3⟩ := resetWidget_ok h
  refine ⟨e2.trans hg.simulate, by rw [e3]; exact hg.named, ?_, ?_⟩
  · intro s hu
    obtain ⟨hc, ho, ⟨c, mem, w, it, h1, h2, h3, h4, h5⟩, h6, h7⟩ := hg.scene s hu
    have hset : SameSettings g.input (s.begin w it) := trajectory_settings hp h4
    have h2' : g.sim0 = (s.state, c) := h2
    refine ⟨hc, ho, ⟨c, g.input.sim.memory, r.1, r.2, h1, by rw [e1]; exact h2, ?_, ?_, ?_⟩, by rw [e1]; exact h6, ?_⟩
    · rw [← hr, hset.module, h2']; rfl
    · rw [e1]
      simp only [trajectory, Scene.begin]
      have := hset.ifm
      simp only [Scene.begin] at this
      rw [this, hc.2, hset.integrator, hset.dtNum, hset.dtDen, hset.impactOp, hset.cor, hset.frictionSolver, hset.mu, hset.impactMap, hset.path, hset.module]
      rfl
    · intro i; rw [e1]; exact changes_zero _ _ _ _
    · rw [e1, h2']
  · intro hu
    obtain ⟨h0, h1, h2, h3, h4, h5, h6, h7, h8⟩ := hg.none hu
    have h8' : g.input.scriptModule = [] := h8
    rw [h8', hno] at hr
    cases hr
    rw [e1]
    refine ⟨h0, h1, h2, h3, h4, ?_, h7, h7, h8⟩
    exact resetCachedData_null.mpr h5

theorem handle_unfinished {v : Frontend St C Mem S k} {e : Input St} {g g' : Gui St C Mem S k} (h : handle v e g = .ok g') (hf : g'.finished = false) :
    g.finished = false := by
  by_contra hne
  have : g.finished = true := by simpa using hne
  rw [handle.eq_def, if_pos this] at h
  cases h
  rw [this] at hf; cases hf

theorem inv_next {v : Frontend St C Mem S k} (hp : KeepsSettings v.program) (hno : NoScript v) {u : Session St} {e : Input St} {g g' : Gui St C Mem S k}
    (hg : Inv v u g.core g.simulate g.sceneName) (he : e.Sane v.program) (h : handle v e g = .ok g') (hf : g'.finished = false) :
    Inv v (u.next e) g'.core g'.simulate g'.sceneName := by
  have hgf := handle_unfinished h hf
  have keep : ∀ {y : Gui St C Mem S k}, y.core = g.core ∧ y.simulate = g.simulate ∧ y.sceneName = g.sceneName → Inv v u y.core y.simulate y.sceneName := by
    rintro y ⟨e1, e2, e3⟩
    rw [e1, e2, e3]; exact hg
  rw [handle.eq_def, if_neg (by rw [hgf]; decide)] at h
  cases e with
  | step => exact inv_stepped hp hg h hf
  | idle =>
    simp only at h
    simp only [Session.next, ← hg.simulate]
    split at h
    · rename_i hs
      rw [if_pos hs]; exact inv_stepped hp hg h hf
    · rename_i hs
      cases h
      rw [if_neg hs]; exact hg
  | toggleSimulate =>
    cases h
    exact ⟨by simp [Session.next, hg.simulate], hg.named, fun s hs => (let ⟨a, b, c, d, e⟩ := hg.scene s hs; ⟨a, b, c, d, e⟩), hg.none⟩
  | reset =>
    obtain ⟨g1, h1, h2⟩ := Outcome.bind_ok_iff.mp h
    have := inv_reset hp hno hg h1
    cases h2
    split
    · obtain ⟨e1, e2, e3⟩ := uncheckMovie_core g1
      rw [e1, e2, e3]; exact this
    · exact this
  | openFile name f =>
    exact inv_opens hg (by rintro s rfl; exact he) h
  | reload f =>
    simp only at h
    split at h
    · rename_i hn
      cases h
      have : ¬ u.scene.isSome = true := fun hs => hg.named.mp hs hn
      rw [Session.next, if_neg this]; exact hg
    · rename_i hn
      rw [Session.next, if_pos (hg.named.mpr hn)]
      exact inv_opens hg (by rintro s rfl; exact ⟨hn, he⟩) h
  | toggleRender => cases h; exact keep (setRender_core _ _)
  | toggleLock => cases h; exact keep (setLock_core _ _)
  | setFps n => exact keep (setSpin_core h)
  | toggleMovie dir =>
    cases h
    split
    · exact keep (uncheckMovie_core _)
    · exact keep (checkMovie_core _ _)
  | exportMovie dir =>
    cases h
    have e1 := checkMovie_core dir (uncheckMovie g)
    have e2 := uncheckMovie_core g
    exact keep ⟨e1.1.trans e2.1, e1.2.1.trans e2.2.1, e1.2.2.trans e2.2.2⟩
  | exportImage file =>
    cases h
    split <;> exact keep ⟨rfl, rfl, rfl⟩
  | toggleHud =>
    obtain ⟨e1, e2, e3⟩ := paint_core h
    exact keep ⟨e1.trans rfl, e2, e3⟩
  | expose => exact keep (paint_core h)

theorem runEvents_unfinished {v : Frontend St C Mem S k} : ∀ {es : List (Input St)} {g g' : Gui St C Mem S k},
    runEvents v es g = .ok g' → g'.finished = false → g.finished = false
  | [], _, _, h, hf => by cases h; exact hf
  | e :: es, g, g', h, hf => by
    obtain ⟨g1, h1, h2⟩ := Outcome.bind_ok_iff.mp h
    exact handle_unfinished h1 (runEvents_unfinished h2 hf)

theorem inv_run {v : Frontend St C Mem S k} (hp : KeepsSettings v.program) (hno : NoScript v) : ∀ {es : List (Input St)} {u : Session St} {g g' : Gui St C Mem S k},
    Inv v u g.core g.simulate g.sceneName → (∀ e ∈ es, e.Sane v.program) → runEvents v es g = .ok g' → g'.finished = false →
    Inv v (es.foldl Session.next u) g'.core g'.simulate g'.sceneName
  | [], _, _, _, hg, _, h, _ => by cases h; exact hg
  | e :: es, u, g, g', hg, he, h, hf => by
    obtain ⟨g1, h1, h2⟩ := Outcome.bind_ok_iff.mp h
    exact inv_run (es := es) (u := u.next e) hp hno (inv_next hp hno hg (he e List.mem_cons_self) h1 (runEvents_unfinished h2 hf))
      (fun e' he' => he e' (List.mem_cons_of_mem _ he')) h2 hf

/-- Everything the user does from the start of the program, with a scene on the command line or (`file = .missing`) without -/
def session (v : Frontend St C Mem S k) (state : St) (mem : Mem) (endTime nan : F64) (name : Bytes) (file : File St) (es : List (Input St)) : Outcome (Gui St C Mem S k) :=
  (startWith v state mem endTime nan name file).bind (runEvents v es)

theorem inv_session {v : Frontend St C Mem S k} (hp : KeepsSettings v.program) (hno : NoScript v) {state : St} {mem : Mem} {endTime nan : F64} {name : Bytes} {file : File St}
    {es : List (Input St)} {g : Gui St C Mem S k} (hfile : Input.Sane v.program (.openFile name file)) (hes : ∀ e ∈ es, e.Sane v.program)
    (h : session v state mem endTime nan name file es = .ok g) (hf : g.finished = false) : Inv v (history file es) g.core g.simulate g.sceneName := by
  obtain ⟨g1, h1, h2⟩ := Outcome.bind_ok_iff.mp h
  refine inv_run hp hno ?_ hes h2 hf
  refine inv_opens (g := start v state mem endTime nan) ?_ (by rintro s rfl; exact hfile) h1
  exact ⟨rfl, by simp [start], fun s hs => (by cases hs), fun _ => ⟨rfl, rfl, rfl, rfl, rfl, rfl, rfl, rfl, rfl⟩⟩

/-- **C76.** Whatever the user does — steps, simulating, resets, opening and reloading scenes, frame rates, movies, images — as long as the program runs, what it
has computed is the scene opened last after the number of steps taken since it was opened or reset: the same states as those of a command line program
(`trajectory`). The time at which the run ends and the reference of the displayed changes are those of the scene. The displayed changes are the largest
ones so far.

The run starts from the simulation as the script's start function leaves it, called with an empty constraint cache and with what the interpreter remembers. For the
program that does not clear the cache (`clearsCache`, rigidbody2dqt4) the cache is known to be empty for the first scene only. -/
theorem C76_replay (v : Frontend St C Mem S k) (hp : KeepsSettings v.program) (hno : NoScript v) (state : St) (mem0 : Mem) (endTime nan : F64) (name : Bytes)
    (file : File St) (es : List (Input St)) (g : Gui St C Mem S k) (hfile : Input.Sane v.program (.openFile name file)) (hes : ∀ e ∈ es, e.Sane v.program)
    (h : session v state mem0 endTime nan name file es = .ok g) (hf : g.finished = false) (s : Scene St) (hs : (history file es).scene = some s) :
    ∃ cache mem w it, (v.clearsCache = true ∨ (history file es).opened = 1 → cache = v.noCache) ∧
      v.startOfSim s.scriptModule ⟨s.state, cache, mem⟩ 0 = .ok (w, it) ∧
      trajectory v.program (s.begin w it) (history file es).steps = .ok g.input ∧
      (∀ i, IsGreatest (Changes v (s.begin w it) s.state (history file es).steps i) (g.drift i)) ∧ g.endTime = s.endTime ∧
      g.simulate = (history file es).simulating := by
  have hi := inv_session hp hno hfile hes h hf
  obtain ⟨-, -, ⟨c, mem, w, it, h1, h2, h3, h4, h5⟩, h6, h7⟩ := hi.scene s hs
  exact ⟨c, mem, w, it, h1, h3, h4, h5, h6, hi.simulate⟩

omit [AddCommGroup S] [LinearOrder S] in
/-- one step from equal inputs -/
theorem advance_same {v : Frontend St C Mem S k} (hv : Forgetful v) {i j x y : StepInput (World St C Mem)} (hij : SameInput i j)
    (hx : advance v.program i = .ok x) (hy : advance v.program j = .ok y) : SameInput x y := by
  obtain ⟨r, h1, h2⟩ := Outcome.bind_ok_iff.mp hx
  obtain ⟨r', h1', h2'⟩ := Outcome.bind_ok_iff.mp hy
  obtain ⟨e1, e2⟩ := hv.step i j r r' hij h1 h1'
  cases h2; cases h2'
  refine ⟨e1, ?_⟩
  have := hij.2
  rw [← this]
  simp only [e2]

omit [AddCommGroup S] [LinearOrder S] in
theorem trajectory_same {v : Frontend St C Mem S k} (hv : Forgetful v) {i j : StepInput (World St C Mem)} (hij : SameInput i j) :
    ∀ {n x y}, trajectory v.program i n = .ok x → trajectory v.program j n = .ok y → SameInput x y
  | 0, x, y, hx, hy => by cases hx; cases hy; exact hij
  | n + 1, x, y, hx, hy => by
    obtain ⟨x', h1, h2⟩ := Outcome.bind_ok_iff.mp hx
    obtain ⟨y', h1', h2'⟩ := Outcome.bind_ok_iff.mp hy
    exact advance_same hv (trajectory_same hv hij h1 h1') h2 h2'

/-- **C76, reproducibility.** If the effect of the script on the simulation does not depend on what the interpreter remembers, then two histories that end with the same
scene and the same number of steps since it was opened or reset — for instance before and after a reset or a reload — show the same simulation. (For the program that does not clear the
cache: if neither history opened a scene before.) -/
theorem C76_reproducible (v : Frontend St C Mem S k) (hp : KeepsSettings v.program) (hno : NoScript v) (hv : Forgetful v) (state state' : St) (mem0 mem0' : Mem)
    (endTime endTime' nan nan' : F64) (name name' : Bytes) (file file' : File St) (es es' : List (Input St)) (g g' : Gui St C Mem S k)
    (hfile : Input.Sane v.program (.openFile name file)) (hes : ∀ e ∈ es, e.Sane v.program)
    (hfile' : Input.Sane v.program (.openFile name' file')) (hes' : ∀ e ∈ es', e.Sane v.program)
    (h : session v state mem0 endTime nan name file es = .ok g) (hf : g.finished = false)
    (h' : session v state' mem0' endTime' nan' name' file' es' = .ok g') (hf' : g'.finished = false) (s : Scene St)
    (hs : (history file es).scene = some s) (hs' : (history file' es').scene = some s) (hsteps : (history file es).steps = (history file' es').steps)
    (hcache : v.clearsCache = true ∨ ((history file es).opened = 1 ∧ (history file' es').opened = 1)) : SameInput g.input g'.input := by
  obtain ⟨c, mem, w, it, h1, h2, h3, -⟩ := C76_replay v hp hno state mem0 endTime nan name file es g hfile hes h hf s hs
  obtain ⟨c', mem', w', it', h1', h2', h3', -⟩ := C76_replay v hp hno state' mem0' endTime' nan' name' file' es' g' hfile' hes' h' hf' s hs'
  rw [h1 (hcache.imp_right And.left)] at h2
  rw [h1' (hcache.imp_right And.right)] at h2'
  obtain ⟨e1, e2⟩ := hv.start s.scriptModule _ _ 0 _ _ (by exact ⟨rfl, rfl⟩) h2 h2'
  rw [← hsteps] at h3'
  simp only at e1 e2
  refine trajectory_same hv ?_ h3 h3'
  exact ⟨e1, by rw [e2]; rfl⟩

/-- **C76, the end.** A request for a step ends the program exactly if the end time is reached; the script's end function is then called with the current simulation. No other
event ends the program. -/
theorem C76_end (v : Frontend St C Mem S k) (e : Input St) (g g' : Gui St C Mem S k) (hg : g.finished = false) (h : handle v e g = .ok g') :
    g'.finished = true ↔ (e = .step ∨ (e = .idle ∧ g.simulate = true)) ∧
      v.program.reached g.input.dtNum g.input.dtDen g.endTime g.input.iteration = true := by
  rw [handle.eq_def, if_neg (by rw [hg]; decide)] at h
  have hstep : ∀ {y : Gui St C Mem S k}, step v g = .ok y → (y.finished = true ↔ v.program.reached g.input.dtNum g.input.dtDen g.endTime g.input.iteration = true) := by
    intro y hy
    unfold step at hy
    split at hy
    · rename_i hr
      obtain ⟨w, -, hy⟩ := Outcome.bind_ok_iff.mp hy
      cases hy
      simp [hr]
    · rename_i hr
      simp only [hr]
      split at hy
      · cases hy; simp [hg]
      · obtain ⟨r, h1, hy⟩ := Outcome.bind_ok_iff.mp hy
        obtain ⟨g2, h2, h3⟩ := Outcome.bind_ok_iff.mp hy
        have e := (show_core h3).1.trans (refresh_core h2).1
        have : y.finished = g.finished := congrArg Core.finished e
        simp [this, hg]
  have keep : ∀ {y : Gui St C Mem S k}, y.core = g.core → ¬ y.finished = true := by
    intro y hy
    have : y.finished = g.finished := congrArg Core.finished hy
    simp [this, hg]
  cases e with
  | step => simp [hstep h]
  | idle =>
    simp only at h
    split at h
    · rename_i hs; simp [hstep h, hs]
    · rename_i hs; cases h; simp [hg, hs]
  | toggleSimulate => cases h; simp [hg]
  | reset =>
    obtain ⟨g1, h1, h2⟩ := Outcome.bind_ok_iff.mp h
    obtain ⟨r, -, e1, -⟩ := resetWidget_ok h1
    have e2 : g'.finished = g1.finished := by
      cases h2
      split
      · exact congrArg Core.finished (uncheckMovie_core g1).1
      · rfl
    have e3 : g1.finished = g.finished := congrArg Core.finished e1
    simp [e2, e3, hg]
  | openFile name f =>
    cases f with
    | missing => cases h; simp [hg]
    | refused => cases h; simp [hg]
    | scene s =>
      obtain ⟨mem, r, -, h2, -⟩ := openScene_ok h
      have : g'.finished = g.finished := congrArg Core.finished h2
      simp [this, hg]
  | reload f =>
    simp only at h
    split at h
    · cases h; simp [hg]
    · cases f with
      | missing => cases h; simp [hg]
      | refused => cases h; simp [hg]
      | scene s =>
        obtain ⟨mem, r, -, h2, -⟩ := openScene_ok h
        have : g'.finished = g.finished := congrArg Core.finished h2
        simp [this, hg]
  | toggleRender => cases h; simpa using keep (setRender_core _ g).1
  | toggleLock => cases h; simpa using keep (setLock_core _ g).1
  | setFps n => simpa using keep (setSpin_core h).1
  | toggleMovie dir =>
    cases h
    split
    · simpa using keep (uncheckMovie_core g).1
    · simpa using keep (checkMovie_core dir g).1
  | exportMovie dir => cases h; simpa using keep ((checkMovie_core dir _).1.trans (uncheckMovie_core g).1)
  | exportImage file =>
    cases h
    split <;> simpa [saveScreenshot] using hg
  | toggleHud => simpa using keep ((paint_core h).1.trans rfl)
  | expose => simpa using keep (paint_core h).1

end

end Scisim.Viewer
