import Verif.Props.ViewerControls
import Verif.Props.ViewerMovie
/-!
# C76, C77, C78: concrete sessions, and where the claims fail
-/

namespace Scisim.Viewer

/-! ## A program for the examples

The state is a number and bodies that refer to geometry; a step adds one to the number. -/

structure Toy where
  pos : ℤ
  bodies : List Nat
  shapes : List Nat
  box : Bool
deriving DecidableEq

/-- What a script does -/
structure Script where
  start : World Toy Nat Nat → World Toy Nat Nat
  step : World Toy Nat Nat → World Toy Nat Nat

def noScript : Script := ⟨id, id⟩

def toyProgram (s : Script) : Program (World Toy Nat Nat) where
  format := ⟨1337, fun _ => .ok [], fun _ => .fail, deIntegratorRB2D, true⟩
  git := []
  build := ⟨false, false⟩
  useHdf5 := false
  flowFree i := .ok (s.step { i.sim with state := { i.sim.state with pos := i.sim.state.pos + 1 + (i.sim.cache : ℤ) }, cache := i.sim.cache })
  flowImpact i := .ok (s.step { i.sim with state := { i.sim.state with pos := i.sim.state.pos + 1 + (i.sim.cache : ℤ) }, cache := i.sim.cache + 1 })
  flowFriction _ := .exit
  reached _ _ _ it := decide (100 ≤ it)

/-- `rigid2d` is whether the program is like `rigidbody2dqt4`; else it is like `ball2dqt4`. -/
def toy (rigid2d : Bool) (s : Script) : Frontend Toy Nat Nat ℤ 1 where
  program := toyProgram s
  noCache := 0
  clearsCache := !rigid2d
  openClearsMovie := !rigid2d
  resetEndsMovie := true
  resetRecolours := true
  stepRecolours := true
  initialFps := 50
  loadModule _ _ m := .ok m
  startOfSim m w it := .ok (if m = [] then w else s.start w, it)
  endOfSim _ w := .ok w
  measure x _ := x.pos
  bodies x := x.bodies.length
  shapes x := x.shapes
  shapeOf x := x.bodies
  hasBox x := x.box

def toyScene (contacts : Bool) (module : Bytes) (fps : UInt32) : Scene Toy where
  state := ⟨10, [0, 0, 1], [7, 8], true⟩
  integrator := .verlet
  dtNum := 1
  dtDen := 100
  endTime := ⟨0⟩
  impactOp := if contacts then .gaussSeidel ⟨0⟩ else .null
  cor := ⟨0⟩
  impactMap := if contacts then .impactMap false else .null
  frictionSolver := .null
  mu := ⟨0⟩
  impactFrictionMap := .null
  scriptPath := []
  scriptModule := module
  display := some ⟨fps, false, false⟩

def empty : Toy := ⟨0, [], [], false⟩

/-- A session of the toy program started with a scene -/
def toySession (rigid2d : Bool) (s : Script) (scene : Scene Toy) (es : List (Input Toy)) : Outcome (Gui Toy Nat Nat ℤ 1) :=
  session (toy rigid2d s) empty 0 ⟨0⟩ ⟨0⟩ (ascii "a.xml") (.scene scene) es

/-- For looking at a part of a result -/
def _root_.Scisim.Outcome.map {α β : Type} (f : α → β) : Outcome α → Outcome β := fun o => o.bind fun a => .ok (f a)

theorem ub_of_map {α : Type} {o : Outcome α} (h : o.map (fun _ => ()) = .ub) : o = .ub := by
  cases o with
  | ub => rfl
  | ok g => cases h
  | fail => cases h
  | exit => cases h

theorem toy_keeps (s : Script) : KeepsSettings (toyProgram s) := by intro i x m h; cases h

theorem toy_noScript (rigid2d : Bool) (s : Script) : NoScript (toy rigid2d s) := fun _ _ => rfl

theorem toy_complete (s : Script) (contacts : Bool) (module : Bytes) (fps : UInt32) : (toyScene contacts module fps).Complete (toyProgram s) := by
  refine ⟨⟨by simp [toyScene], ?_⟩, rfl⟩
  cases contacts
  · exact Or.inl ⟨rfl, rfl, rfl, rfl⟩
  · exact Or.inr (Or.inl ⟨nofun, by simp [toyScene, toyProgram], rfl, rfl⟩)

theorem toy_forgetful (rigid2d : Bool) : Forgetful (toy rigid2d noScript) where
  start := by
    intro m a b it r r' h h1 h2
    cases h1; cases h2
    refine ⟨?_, rfl⟩
    show World.Same (if m = [] then a else a) (if m = [] then b else b)
    simpa using h
  step := by
    intro i j r r' h h1 h2
    obtain ⟨⟨e1, e2⟩, e3⟩ := h
    have e4 : i.integrator = j.integrator ∧ i.impactOp = j.impactOp ∧ i.impactMap = j.impactMap ∧ i.frictionSolver = j.frictionSolver ∧
        i.impactFrictionMap = j.impactFrictionMap := by rw [← e3]; exact ⟨rfl, rfl, rfl, rfl, rfl⟩
    obtain ⟨a1, a2, a3, a4, a5⟩ := e4
    unfold flowStep at h1 h2
    rw [a1, a2, a3, a4, a5] at h1
    split at h1
    · rename_i hc; rw [if_pos hc] at h2; cases h1; cases h2; exact ⟨⟨e1, e2⟩, rfl⟩
    · rename_i hc1
      rw [if_neg hc1] at h2
      split at h1
      · rename_i hc
        rw [if_pos hc] at h2
        cases h1; cases h2
        exact ⟨⟨by simp [noScript, e1, e2], by simp [noScript, e2]⟩, rfl⟩
      · rename_i hc2
        rw [if_neg hc2] at h2
        split at h1
        · rename_i hc
          rw [if_pos hc] at h2
          cases h1; cases h2
          exact ⟨⟨by simp [noScript, e1, e2], by simp [noScript, e2]⟩, rfl⟩
        · rename_i hc3
          rw [if_neg hc3] at h2
          split at h1 <;> cases h1

theorem toy_tame (rigid2d : Bool) : Tame (toy rigid2d noScript) where
  start := by
    intro m w it r h hw
    cases h
    have e : (if m = [] then w else noScript.start w) = w := by split <;> rfl
    show WellFormed _ (if m = [] then w else noScript.start w).state ∧ (toy rigid2d noScript).bodies (if m = [] then w else noScript.start w).state ≤ _ ∧ _
    rw [e]
    exact ⟨hw, le_refl _, rfl⟩
  step := by
    intro i r h hw
    unfold flowStep at h
    split at h
    · cases h; exact ⟨hw, Or.inl (le_refl _), Or.inl rfl⟩
    · split at h
      · cases h; exact ⟨hw, Or.inl (le_refl _), Or.inl rfl⟩
      · split at h
        · cases h; exact ⟨hw, Or.inl (le_refl _), Or.inl rfl⟩
        · split at h <;> cases h
  reset := fun _ => rfl

theorem toy_sound (rigid2d : Bool) (s : Script) : Sound (toy rigid2d s) where
  free _ := nofun
  impact _ := nofun
  friction _ := nofun
  load _ _ _ := nofun
  start _ _ _ := nofun
  finish _ _ := nofun

/-! ## C76 -/

/-- a session that uses everything -/
def busy : List (Input Toy) :=
  [.expose, .step, .step, .toggleSimulate, .idle, .toggleMovie (ascii "m"), .idle, .reset, .idle, .openFile (ascii "b.xml") .refused, .setFps 25,
   .openFile (ascii "b.xml") (.scene (toyScene false [] 25)), .step, .toggleHud, .reload .missing, .step, .exportImage (ascii "i.png")]

theorem busy_sane (s : Script) : ∀ e ∈ busy, e.Sane (toyProgram s) := by
  intro e he
  simp only [busy, List.mem_cons, List.not_mem_nil, or_false] at he
  rcases he with rfl | rfl | rfl | rfl | rfl | rfl | rfl | rfl | rfl | rfl | rfl | rfl | rfl | rfl | rfl | rfl | rfl <;>
    first
    | trivial
    | exact ⟨by decide, toy_complete s false [] 25⟩

/-- the hypotheses of `C76_replay` and `C76_reproducible` are met by a session with two scenes, and it is where it should be: two steps into the second -/
theorem busy_ok : ((toySession false noScript (toyScene true [] 50) busy).map fun g => (g.finished, g.input.sim.state.pos, g.drift 0, g.files.length)) =
    .ok (false, 12, 2, 3) := by decide +kernel

example : (history (.scene (toyScene true [] 50)) busy).scene.isSome = true ∧ (history (.scene (toyScene true [] 50)) busy).steps = 2 ∧
    (history (.scene (toyScene true [] 50)) busy).opened = 2 := by decide +kernel

example (g : Gui Toy Nat Nat ℤ 1) (h : toySession false noScript (toyScene true [] 50) busy = .ok g) (hf : g.finished = false) :
    ∃ mem w it, (toy false noScript).startOfSim [] ⟨(toyScene false [] 25).state, 0, mem⟩ 0 = .ok (w, it) ∧
      trajectory (toyProgram noScript) ((toyScene false [] 25).begin w it) 2 = .ok g.input := by
  obtain ⟨c, mem, w, it, h1, h2, h3, -⟩ := C76_replay (toy false noScript) (toy_keeps _) (toy_noScript _ _) empty 0 ⟨0⟩ ⟨0⟩ (ascii "a.xml") (.scene (toyScene true [] 50)) busy g
    ⟨by decide, toy_complete _ _ _ _⟩ (busy_sane _) h hf (toyScene false [] 25) rfl
  rw [h1 (Or.inl rfl)] at h2
  exact ⟨mem, w, it, h2, h3⟩

example (g g' : Gui Toy Nat Nat ℤ 1) (h : toySession false noScript (toyScene true [] 50) busy = .ok g) (hf : g.finished = false)
    (h' : toySession false noScript (toyScene false [] 25) [.step, .step] = .ok g') (hf' : g'.finished = false) : SameInput g.input g'.input :=
  C76_reproducible (toy false noScript) (toy_keeps _) (toy_noScript _ _) (toy_forgetful _) empty empty 0 0 ⟨0⟩ ⟨0⟩ ⟨0⟩ ⟨0⟩ (ascii "a.xml") (ascii "a.xml") (.scene (toyScene true [] 50))
    (.scene (toyScene false [] 25)) busy [.step, .step] g g' ⟨by decide, toy_complete _ _ _ _⟩ (busy_sane _) ⟨by decide, toy_complete _ _ _ _⟩
    (by intro e he; simp only [List.mem_cons, List.not_mem_nil, or_false] at he; rcases he with rfl | rfl <;> trivial) h hf h' hf' (toyScene false [] 25) rfl rfl rfl
    (Or.inl rfl)

/-- **C76 is false of `rigidbody2dqt4`** for the second scene opened in a run: it starts with the constraint cache of the scene before (rigidbody2dqt4/GLWidget.cpp:286-289
has no `clearConstraintCache`), so the same scene gives another result than in a program just started, and a reset does not help. -/
theorem C76_second_scene_false :
    (toySession true noScript (toyScene true [] 50) [.step]).map (fun g => g.input.sim.state.pos) = .ok 11 ∧
    (toySession true noScript (toyScene true [] 50) [.step, .openFile (ascii "a.xml") (.scene (toyScene true [] 50)), .step]).map (fun g => g.input.sim.state.pos) = .ok 12 ∧
    (toySession true noScript (toyScene true [] 50) [.step, .openFile (ascii "a.xml") (.scene (toyScene true [] 50)), .step, .reset, .step]).map
      (fun g => g.input.sim.state.pos) = .ok 12 := by decide +kernel

/-- a script that counts its calls and moves the body by the count -/
def counting : Script := ⟨id, fun w => { w with state := { w.state with pos := w.state.pos + (w.memory : ℤ) }, memory := w.memory + 1 }⟩

/-- **C76 is false with scripts that remember:** a reset does not load the script again, so that what it remembers from before the reset changes the run. -/
theorem C76_script_memory_false :
    (toySession false counting (toyScene false (ascii "s") 50) [.step]).map (fun g => g.input.sim.state.pos) = .ok 11 ∧
    (toySession false counting (toyScene false (ascii "s") 50) [.step, .reset, .step]).map (fun g => g.input.sim.state.pos) = .ok 12 := by decide +kernel

/-! ## C77 -/

/-- dt = 1/100 and 50 frames per second: a frame every two steps. The movie is started after three steps; five more are taken. -/
def movie : List (Input Toy) := [.step, .idle, .toggleLock, .step, .toggleRender, .step, .toggleSimulate, .idle, .toggleHud, .idle, .expose]

theorem movie_quiet : ∀ e ∈ movie, e.Quiet := by
  intro e he
  simp only [movie, List.mem_cons, List.not_mem_nil, or_false] at he
  rcases he with rfl | rfl | rfl | rfl | rfl | rfl | rfl | rfl | rfl | rfl | rfl <;> trivial

/-- the names, positions and time labels of the frames saved -/
def frames (g : Gui Toy Nat Nat ℤ 1) : List (Bytes × Option (ℤ × Option UInt32)) := g.files.map fun f => (f.1, f.2.map fun p => (p.state.pos, p.hud.map Prod.fst))

example : (toySession false noScript (toyScene false [] 50) ([.expose, .step, .step, .step, .toggleMovie (ascii "m")] ++ movie)).map frames = .ok
    [(ascii "m/frame0000000000.png", some (13, some 3)), (ascii "m/frame0000000001.png", some (14, some 4)), (ascii "m/frame0000000002.png", some (16, some 6)),
     (ascii "m/frame0000000003.png", some (18, none))] := by decide +kernel

/-- the hypotheses of `C77_movie` are met: any such session that has started is a `g` -/
example (g g1 g' : Gui Toy Nat Nat ℤ 1) (h : toySession false noScript (toyScene false [] 50) [.expose, .step, .step, .step] = .ok g)
    (h1 : handle (toy false noScript) (.toggleMovie (ascii "m")) g = .ok g1) (h2 : runEvents (toy false noScript) movie g1 = .ok g') :
    ∃ n l, n ≤ movie.length ∧ g'.files = g.files ++ l ∧ IsMovie (toy false noScript) g (ascii "m") g.stepsPerFrame.toNat n l ∧
      g'.input.iteration.toNat = g.input.iteration.toNat + n := by
  have e : (toySession false noScript (toyScene false [] 50) [.expose, .step, .step, .step]).map
      (fun g => (g.stepsPerFrame, g.finished, g.movieBox, g.input.iteration)) = .ok (2, false, false, 3) := by decide +kernel
  have e' : (toySession false noScript (toyScene false [] 50) [.expose, .step, .step, .step]).map
      (fun g => decide (g.input.integrator = .verlet ∧ g.input.impactOp = .null ∧ g.input.frictionSolver = .null ∧ g.input.impactMap = .null ∧
        g.input.impactFrictionMap = .null)) = .ok true := by decide +kernel
  rw [h] at e e'
  simp only [Outcome.map, Outcome.bind, Outcome.ok.injEq, Prod.mk.injEq, decide_eq_true_eq] at e e'
  obtain ⟨e1, e2, e3, e4⟩ := e
  obtain ⟨e5, e6, e7, e8, e9⟩ := e'
  refine C77_movie (toy false noScript) (toy_keeps _) g g1 g' (ascii "m") (by decide) ?_ (by rw [e1]; decide) e2 (Or.inl ⟨e3, h1⟩) movie movie_quiet ?_ h2
  · exact ⟨by rw [e5]; decide, Or.inl ⟨e6, e8, e7, e9⟩⟩
  · rw [e4]; decide

example : frameName (ascii "m") 9 < frameName (ascii "m") 10 ∧ (frameName (ascii "m") 9).length = (frameName (ascii "m") 10).length := C77_names _ _ _ (by decide)

example : stepsPerFrameOf ⟨1, 100⟩ 50 = .ok 2 ∧ stepsPerFrameOf ⟨1, 100⟩ 30 = .ok 1 ∧ stepsPerFrameOf ⟨1, 10⟩ 50 = .ok 1 := by decide +kernel

/-- **C77 fails if the frame rate is changed during a movie:** the frames are numbered from 0 again, and the first ones overwritten (ball2dqt4/GLWidget.cpp:613). -/
theorem C77_rate_change_false :
    (toySession false noScript (toyScene false [] 50) [.expose, .toggleMovie (ascii "m"), .step, .step, .setFps 100, .step, .step]).map (fun g => (frames g).map Prod.fst) = .ok
      [ascii "m/frame0000000000.png", ascii "m/frame0000000001.png", ascii "m/frame0000000000.png", ascii "m/frame0000000001.png"] := by decide +kernel

/-- **The first frame** is what is on the screen, which with Render at FPS can be older than the state: here two steps have been taken since. -/
theorem C77_first_frame_old :
    (toySession false noScript (toyScene false [] 25) [.expose, .toggleRender, .step, .step, .toggleMovie (ascii "m")]).map frames = .ok
      [(ascii "m/frame0000000000.png", some (10, some 0))] ∧
    (toySession false noScript (toyScene false [] 25) [.expose, .toggleRender, .step, .step, .toggleMovie (ascii "m")]).map (fun g => g.input.sim.state.pos) = .ok 12 := by
  decide +kernel

/-- **The first interval** is shorter if the movie is not started at a frame: here one step, then two. -/
theorem C77_first_interval :
    (toySession false noScript (toyScene false [] 50) [.step, .toggleMovie (ascii "m"), .step, .step, .step]).map (fun g => (frames g).map Prod.snd) = .ok
      [some (11, some 1), some (12, some 2), some (14, some 4)] := by decide +kernel

/-- a time step of 1/2³² -/
def tinyStep : Scene Toy := { toyScene false [] 1 with dtDen := 4294967296 }

/-- **Division by zero:** with a time step of 1/2³² and one frame per second the number of steps per frame, 2³², does not fit in `unsigned` and is taken as 0
(ball2dqt4/GLWidget.cpp:632); exporting a movie then divides by it. -/
theorem C77_no_steps_ub : toySession false noScript tinyStep [.toggleMovie (ascii "m"), .step] = .ub := by
  exact ub_of_map (by decide +kernel)

/-! ## C78 -/

theorem toyScene_usual (c : Bool) (m : Bytes) (fps : UInt32) : Usual (toyScene c m fps).dtNum (toyScene c m fps).dtDen := by
  show Usual 1 100
  unfold Usual
  decide

theorem toyScene_wellFormed (rigid2d c : Bool) (m : Bytes) (fps : UInt32) : WellFormed (toy rigid2d noScript) (toyScene c m fps).state := by
  show ∀ i ∈ [0, 0, 1], i < 2
  decide

theorem busy_healthy : ∀ e ∈ busy, e.Sane (toyProgram noScript) ∧ e.WellFormed (toy false noScript) ∧ e.Usual ∧ e.FpsInRange := by
  intro e he
  refine ⟨busy_sane _ e he, ?_⟩
  simp only [busy, List.mem_cons, List.not_mem_nil, or_false] at he
  rcases he with rfl | rfl | rfl | rfl | rfl | rfl | rfl | rfl | rfl | rfl | rfl | rfl | rfl | rfl | rfl | rfl | rfl <;>
    first
    | exact ⟨trivial, trivial, trivial⟩
    | exact ⟨toyScene_wellFormed _ _ _ _, toyScene_usual _ _ _, by intro d hd; cases hd; decide⟩

/-- the hypotheses of `C78_defined_partial` are met -/
example : toySession false noScript (toyScene true [] 50) busy ≠ .ub ∧ ∀ g, toySession false noScript (toyScene true [] 50) busy = .ok g → g.finished = false →
    Consistent g ∧ Paced g ∧ ∃ g', handle (toy false noScript) .expose g = .ok g' ∧ Current (toy false noScript) g' :=
  C78_defined_partial (toy false noScript) (toy_tame _) (toy_sound _ _) (toy_keeps _) empty 0 ⟨0⟩ ⟨0⟩ (ascii "a.xml") (.scene (toyScene true [] 50)) busy ⟨rfl, rfl, rfl⟩
    (by decide) ⟨⟨by decide, toy_complete _ _ _ _⟩, toyScene_wellFormed _ _ _ _, toyScene_usual _ _ _, by intro d hd; cases hd; decide⟩ busy_healthy

/-- **The frame rate shown is not the one in force** after opening a scene with a frame rate above 1000 when 1000 is already shown: the box stays at 1000, sends no signal, and the
program uses the scene's frame rate. -/
theorem C78_controls_false :
    (toySession false noScript (toyScene false [] 1000) [.openFile (ascii "b.xml") (.scene (toyScene false [] 2000))]).map (fun g => (g.spin, g.fps)) = .ok (1000, 2000) := by
  decide +kernel

/-- a script that inserts a body at the start -/
def inserting : Script := ⟨fun w => { w with state := { w.state with bodies := 0 :: w.state.bodies } }, id⟩

/-- **Undefined:** a script that inserts a ball at the start of the simulation: the colours were counted before (ball2dqt4/GLWidget.cpp:240-280), and drawing reads beyond them. -/
theorem C78_start_insert_ub : toySession false inserting (toyScene false (ascii "s") 50) [.expose] = .ub := ub_of_map (by decide +kernel)

/-- a script that replaces a geometry by another one -/
def replacing : Script := ⟨id, fun w => { w with state := { w.state with shapes := [7, 9] } }⟩

/-- **Undefined:** a script of `rigidbody2dqt4` that deletes a geometry and adds another one in a step: the number is unchanged, so the renderers are not renewed, and one refers to the
deleted geometry. -/
theorem C78_replace_ub : toySession true replacing (toyScene false (ascii "s") 50) [.step] = .ub := ub_of_map (by decide +kernel)

/-- a script that adds a geometry -/
def adding : Script := ⟨id, fun w => { w with state := { w.state with shapes := w.state.shapes ++ [9] } }⟩

/-- **The program ends** when a script adds a geometry to a scene with a box (rigidbody2dqt4/GLWidget.cpp:106-116). -/
theorem C78_add_exit : (toySession true adding (toyScene false (ascii "s") 50) [.step]).map (fun _ => ()) = .exit := by decide +kernel

end Scisim.Viewer
