import Verif.Lemmas.SceneBall2D
import Verif.Lemmas.SceneSafe
/-!
# C70: scene files of the simulation of balls

`DescribesBallScene` (Spec/SceneBall2D.lean) says what a scene file means, element by element; `exactReading` is the format (Spec/SceneText.lean).
-/

namespace Scisim

/-- **C70 (partial).** A scene file in the format is loaded, and as the scene it describes. Missing, since it is false: files that are not in the format are
not all rejected (`C70_false_…`); which are accepted, and as what, is `C70_accepts`. -/
theorem C70_loads_partial (b : Build) (doc : XmlNode) (s : BallScene) (h : DescribesBallScene exactReading b doc s) : parseBallScene b doc = .ok s :=
  (parseBallScene_ok b doc s).mpr (DescribesBallScene.mono exact_le_lenient h)

/-- **C70.** A file describes at most one scene. -/
theorem C70_unique (b : Build) (doc : XmlNode) (s s' : BallScene) (h : DescribesBallScene exactReading b doc s) (h' : DescribesBallScene exactReading b doc s') :
    s = s' := by
  have h1 := C70_loads_partial b doc s h
  rw [C70_loads_partial b doc s' h'] at h1
  exact (Outcome.ok.inj h1).symm

/-- **C70 (what is accepted).** The files that are loaded are those that describe a scene when their texts are read as `lenientReading` says, and they are
loaded as that scene. -/
theorem C70_accepts (b : Build) (doc : XmlNode) (s : BallScene) : parseBallScene b doc = .ok s ↔ DescribesBallScene lenientReading b doc s :=
  parseBallScene_ok b doc s

/-- **C70.** The viewer loads the same scenes as the program without display, and with them the camera; a file with a camera that is not in order is not
loaded by the viewer. -/
theorem C70_viewer (b : Build) (doc : XmlNode) (c : Option BallCamera) (s : BallScene) :
    parseBallSceneAndCamera b doc = .ok (c, s) ↔ parseBallScene b doc = .ok s ∧ DescribesBallCamera lenientReading doc c := by
  simp only [parseBallSceneAndCamera, parseBallScene, DescribesBallCamera, Outcome.bind_eq_ok, requireChild_ok]
  constructor
  · rintro ⟨root, hroot, h⟩
    cases hc : root.first "camera" with
    | none =>
      rw [hc] at h
      simp only [Outcome.bind_eq_ok, Outcome.ok.injEq, exists_eq_left', Prod.mk.injEq] at h
      obtain ⟨s', hs, rfl, rfl⟩ := h
      exact ⟨⟨root, hroot, hs⟩, root, hroot, Or.inl ⟨hc, rfl⟩⟩
    | some nd =>
      rw [hc] at h
      simp only [loadBallCamera, Outcome.bind_eq_ok, scalar_ok, unsigned_ok, flag_ok, Outcome.ok.injEq, Prod.mk.injEq] at h
      obtain ⟨c', ⟨k, ⟨cx, hcx, cy, hcy, sc, hsc, fps, hfps, rd, hrd, lk, hlk, rfl⟩, rfl⟩, s', hs, rfl, rfl⟩ := h
      exact ⟨⟨root, hroot, hs⟩, root, hroot, Or.inr ⟨nd, _, hc, rfl, hcx, hcy, hsc, hfps, hrd, hlk⟩⟩
  · rintro ⟨⟨root, hroot, hs⟩, root', hroot', hcam⟩
    rw [hroot] at hroot'
    cases hroot'
    refine ⟨root, hroot, ?_⟩
    rcases hcam with ⟨hc, rfl⟩ | ⟨nd, k, hc, rfl, hcx, hcy, hsc, hfps, hrd, hlk⟩
    · rw [hc]
      simp only [Outcome.bind_eq_ok, Outcome.ok.injEq, exists_eq_left']
      exact ⟨s, hs, rfl⟩
    · rw [hc]
      simp only [loadBallCamera, Outcome.bind_eq_ok, scalar_ok, unsigned_ok, flag_ok, Outcome.ok.injEq]
      exact ⟨_, ⟨k, ⟨k.cx, hcx, k.cy, hcy, k.scale, hsc, k.fps, hfps, k.renderAtFps, hrd, k.locked, hlk, rfl⟩, rfl⟩, s, hs, rfl⟩

theorem flatMap_pair_length {α β : Type} (f g : α → β) (l : List α) : (l.flatMap fun c => [f c, g c]).length = 2 * l.length := by
  induction l with
  | nil => rfl
  | cons a l ih =>
    rw [List.flatMap_cons, List.length_append, ih, List.length_cons]
    simp
    omega

/-- **C70.** Every scene that is loaded, from whatever file: the vectors have the sizes that the number of balls demands; timestep and end time are positive;
there are not both an impact operator and a friction solver; a friction solver comes with its map, with a friction coefficient that is not negative and a
coefficient of restitution between zero and one. -/
theorem C70_valid (b : Build) (doc : XmlNode) (s : BallScene) (h : parseBallScene b doc = .ok s) :
    (s.q.length = 2 * s.r.length ∧ s.v.length = 2 * s.r.length ∧ s.m.length = 2 * s.r.length ∧ s.fixed.length = s.r.length) ∧
    0 < s.dt.num ∧ (∀ t, s.endTime = some t → 0 < t) ∧
    (s.solvers.impactOperator = none ∨ s.solvers.frictionSolver = none) ∧
    (s.solvers.impactOperator.isSome → s.solvers.impactMap.isSome ∧ s.solvers.CoR.isSome) ∧
    (s.solvers.frictionSolver.isSome → s.solvers.ifMap.isSome ∧ (∃ mu, s.solvers.mu = some mu ∧ 0 ≤ mu) ∧ ∃ e, s.solvers.CoR = some e ∧ 0 ≤ e ∧ e ≤ 1) := by
  obtain ⟨root, -, -, he, -, ⟨nd, -, hst, -⟩, ⟨c, hc, hcs⟩, -, -, balls, -, hq, hv, hm, hr, hf⟩ := (parseBallScene_ok b doc s).mp h
  refine ⟨⟨?_, ?_, ?_, ?_⟩, hst.2.2, ?_, ?_, ?_, ?_⟩
  · rw [hq, hr, flatMap_pair_length, List.length_map]
  · rw [hv, hr, flatMap_pair_length, List.length_map]
  · rw [hm, hr, flatMap_pair_length, List.length_map]
  · rw [hf, hr, List.length_map, List.length_map]
  · rintro t ht
    rcases he with ⟨-, h0⟩ | ⟨nd, x, -, -, hx, h0⟩
    · rw [h0] at ht
      cases ht
    · rw [h0] at ht
      obtain rfl := Option.some.inj ht
      exact hx
  · rw [hcs]
    cases c
    · exact Or.inl rfl
    · exact Or.inr rfl
    · exact Or.inl rfl
  · rw [hcs]
    cases hc with
    | ignored => simp [ContactChoice.setup]
    | impact _ _ _ _ _ hca _ =>
      rw [if_neg (by decide)] at hca
      obtain ⟨k, -, rfl⟩ := hca
      simp [ContactChoice.setup]
    | staggered => simp [ContactChoice.setup]
    | sobogus => simp [ContactChoice.setup]
    | grr hp => cases hp
  · rw [hcs]
    cases hc with
    | ignored => simp [ContactChoice.setup]
    | impact => simp [ContactChoice.setup]
    | staggered _ _ _ _ hf =>
      obtain ⟨_, _, _, _, _, _, _, _, ⟨_, h1, _, h2, h3⟩, _⟩ := hf
      exact fun _ => ⟨rfl, ⟨_, rfl, h1⟩, _, rfl, h2, h3⟩
    | sobogus _ _ _ _ hf =>
      obtain ⟨_, _, _, ⟨_, h1, _, h2, h3⟩, _⟩ := hf
      exact fun _ => ⟨rfl, ⟨_, rfl, h1⟩, _, rfl, h2, h3⟩
    | grr hp => cases hp

/-- **C70 (partial).** Loading succeeds or reports an error, for every file in which the unchecked texts are not blank, the options of the solver are known, and the
reader of fractions returns on the text of the timestep. Without these restrictions it is false: `C70_false_blank`, `C70_false_exit`. -/
theorem C70_returns_partial (b : Build) (doc : XmlNode) (h : ∀ root, doc.first "ball2d_scene" = some root → BallTextsPresent root ∧ SolverOptionsKnown .balls2D root ∧
      ∀ nd t, root.first "integrator" = some nd → nd.attr "dt" = some t → (extractRational t.toList).Returns) : (parseBallScene b doc).Returns := by
  refine (requireChild_returns _ _).bind fun root hroot => ?_
  obtain ⟨⟨hg, hd, hb⟩, hs, ht⟩ := h root ((requireChild_ok _ _ _).mp hroot)
  have hscript : (loadScripting root).Returns := by
    unfold loadScripting
    split
    · exact .ok _
    · exact require_returns _ _
  have hend : (loadEndTime root).Returns := by
    unfold loadEndTime
    split
    · exact .ok _
    · exact (scalar_returns _ _).bind fun _ _ => (failIf_returns _).bind fun _ _ => .ok _
  have hpair : ∀ nd a, (loadPair nd a).Returns := by
    intro nd a
    refine (require_returns _ _).bind fun t _ => ?_
    split
    · exact .ok _
    · exact .fail
  refine hscript.bind fun _ _ => hend.bind fun _ _ => Outcome.Returns.bind (mapNodes_returns _ _ fun nd hnd => ?_) fun _ _ =>
    Outcome.Returns.bind (mapNodes_returns _ _ fun nd hnd => ?_) fun _ _ => Outcome.Returns.bind ?_ fun _ _ => (loadSolvers_returns b .balls2D root hs).bind fun _ _ =>
    Outcome.Returns.bind (mapNodes_returns _ _ fun nd hnd => ?_) fun _ _ => Outcome.Returns.bind (mapNodes_returns _ _ fun nd hnd => ?_) fun _ _ =>
    Outcome.Returns.bind (C48_no_undefined _ _ _ _) fun _ _ => Outcome.Returns.bind (mapNodes_returns _ _ fun nd hnd => ?_) fun _ _ => .ok _
  · exact (scalarUnchecked_returns _ _ (hg nd hnd "fx" (by simp))).bind fun _ _ => (scalarUnchecked_returns _ _ (hg nd hnd "fy" (by simp))).bind fun _ _ => .ok _
  · exact (scalar_returns _ _).bind fun _ _ => (failIf_returns _).bind fun _ _ => (scalar_returns _ _).bind fun _ _ => .ok _
  · refine (requireChild_returns _ _).bind fun nd hnd => Outcome.Returns.bind ?_ fun _ _ => (require_returns _ _).bind fun _ _ => ?_
    · exact (require_returns _ _).bind fun t h => (ht nd t ((requireChild_ok _ _ _).mp hnd) ((require_ok _ _ _).mp h)).bind fun _ _ =>
        (failIf_returns _).bind fun _ _ => .ok _
    · split_ifs
      · exact .ok _
      · exact .ok _
      · exact .fail
  · exact (scalarUnchecked_returns _ _ (hd nd hnd "x" (by simp))).bind fun _ _ => (scalarUnchecked_returns _ _ (hd nd hnd "y" (by simp))).bind fun _ _ =>
      (scalarUnchecked_returns _ _ (hd nd hnd "r" (by simp))).bind fun _ _ => .ok _
  · exact (hpair _ _).bind fun _ _ => (hpair _ _).bind fun _ _ => .ok _
  · exact (scalarUnchecked_returns _ _ (hb nd hnd "x" (by simp))).bind fun _ _ => (scalarUnchecked_returns _ _ (hb nd hnd "y" (by simp))).bind fun _ _ =>
      (scalarUnchecked_returns _ _ (hb nd hnd "vx" (by simp))).bind fun _ _ => (scalarUnchecked_returns _ _ (hb nd hnd "vy" (by simp))).bind fun _ _ =>
      (scalarUnchecked_returns _ _ (hb nd hnd "m" (by simp))).bind fun _ _ => (scalarUnchecked_returns _ _ (hb nd hnd "r" (by simp))).bind fun _ _ =>
      (flagUnchecked_returns _ _ (hb nd hnd "fixed" (by simp))).bind fun _ _ => .ok _

/-! ## An example -/

/-- From assets/ball2d/tests_python_serialization/different_friction.xml, with two balls -/
def exampleBallRoot : XmlNode :=
  .mk "ball2d_scene" [] [
    .mk "camera" [("cx", "6.22585"), ("cy", "10.32"), ("scale_factor", "11.68"), ("fps", "60"), ("render_at_fps", "1"), ("locked", "1")] [],
    .mk "scripting" [("callback", "different_friction")] [],
    .mk "integrator" [("type", "verlet"), ("dt", "1/10080")] [],
    .mk "sobogus_friction_solver" [("mu", "0.2"), ("CoR", "0.7"), ("max_iters", "5000"), ("tol", "1.0e-6"), ("eval_every", "20"), ("staggering", "geometric"),
      ("cache_impulses", "none")] [],
    .mk "gravity" [("fx", "383.25"), ("fy", "-903.5")] [],
    .mk "static_plane" [("x", "0 0"), ("n", "0 1")] [],
    .mk "static_plane" [("x", "0 25"), ("n", "1 0")] [],
    .mk "static_plane" [("x", "12.4517 25"), ("n", "-1 0")] [],
    .mk "planar_portal" [("planeA", "1"), ("planeB", "2")] [],
    .mk "ball" [("x", "3.25"), ("y", "19.5"), ("vx", "0"), ("vy", "0"), ("m", "0.025"), ("r", "0.055"), ("fixed", "0")] [],
    .mk "ball" [("x", "2.75"), ("y", "24.25"), ("vx", "0"), ("vy", "-1"), ("m", "0.03"), ("r", "0.0625"), ("fixed", "1")] []]

def exampleBallScene : BallScene where
  script := "different_friction"
  endTime := none
  forces := [.gravity (383 + 1 / 4) (-903 - 1 / 2)]
  dtText := "1/10080"
  dt := ⟨1, 10080⟩
  integrator := .verlet
  solvers := ⟨none, none, some (7 / 10), some (.sobogus 20), some (1 / 5), some (.geometric (1 / 1000000) 5000 .none)⟩
  drums := []
  planes := [⟨(0, 0), (0, 1)⟩]
  portals := [⟨⟨(0, 25), (1, 0)⟩, ⟨(124517 / 10000, 25), (-1, 0)⟩, (0, 0)⟩]
  q := [13 / 4, 39 / 2, 11 / 4, 97 / 4]
  v := [0, 0, 0, -1]
  m := [1 / 40, 1 / 40, 3 / 100, 3 / 100]
  r := [11 / 200, 1 / 16]
  fixed := [false, true]

theorem isNumber_of {s rest : List Char} {q : ℚ} (h : extractScalar s = .value q rest) (hb : rest = []) : IsNumber s q :=
  ⟨rest, (extractScalar_value s q rest).mp h, by rw [hb]; intro c hc; cases hc⟩

theorem beginsWithInteger_digits (s : List Char) (sg : Sign) (ds : List Digit) (h : s = sg.chars ++ digitText ds) (hd : ds ≠ []) : BeginsWithInteger s sg ds [] :=
  ⟨[], fun _ h => (by cases h), by simp [h], hd, fun c h => by cases h⟩

theorem two_numbers {s r1 r2 : List Char} {a b : ℚ} (h1 : extractScalar s = .value a r1) (hs : ∀ c, r1.head? = some c → isSpace c = true)
    (h2 : extractScalar r1 = .value b r2) (hb : r2 = []) : AreNumbers s [a, b] :=
  .cons ((extractScalar_value _ _ _).mp h1) hs (.cons ((extractScalar_value _ _ _).mp h2) (by rw [hb]; intro c h; cases h) (.nil (by rw [hb]; intro c h; cases h)))

theorem exampleBall_sobogus : DescribesContacts exactReading b .balls2D exampleBallRoot
    (.friction ⟨1 / 5, 7 / 10, .sobogus 20, .geometric (1 / 1000000) 5000 .none⟩) := by
  refine .sobogus rfl rfl rfl (fun h => by cases h) ⟨1 / 1000000, 5000, 20, ⟨⟨_, rfl, isNumber_of (rest := []) ?_ rfl⟩, ?_, ⟨_, rfl, isNumber_of (rest := []) ?_ rfl⟩, ?_, ?_⟩,
    ⟨⟨_, rfl, isNumber_of (rest := []) ?_ rfl⟩, ?_, ⟨_, rfl, .none, [5, 0, 0, 0], [], beginsWithInteger_digits _ _ _ ?_ ?_, ?_, ?_, ?_, ?_⟩, ?_⟩,
    ⟨_, rfl, .none, [2, 0], [], beginsWithInteger_digits _ _ _ ?_ ?_, ?_, ?_, ?_, ?_⟩, ?_, ?_, rfl, .geometric (by decide) rfl rfl⟩
  all_goals first | decide +kernel | (intro c h; cases h)

theorem exampleBall_portals : DescribesPortals exactReading (fun x => 0 < x) exampleBallRoot
    [⟨(0, 0), (0, 1)⟩, ⟨(0, 25), (1, 0)⟩, ⟨(124517 / 10000, 25), (-1, 0)⟩] exampleBallScene.planes exampleBallScene.portals := by
  refine ⟨[(1, 2)], [], [], _, [], .cons ⟨⟨_, rfl, .none, [1], [], beginsWithInteger_digits _ _ _ ?_ ?_, ?_, ?_, ?_, ?_⟩,
    ⟨_, rfl, .none, [2], [], beginsWithInteger_digits _ _ _ ?_ ?_, ?_, ?_, ?_, ?_⟩⟩ .nil, .nil, .nil, ?_, ?_, rfl, .cons ⟨rfl, rfl, rfl⟩ .nil, .nil, ?_⟩
  all_goals first | decide +kernel | (intro c h; cases h)

/-- The hypothesis of `C70_loads_partial` holds of the example. -/
theorem exampleBall_describes (b : Build) : DescribesBallScene exactReading b (.mk "" [] [exampleBallRoot]) exampleBallScene := by
  refine ⟨exampleBallRoot, rfl, Or.inr ⟨_, rfl, rfl⟩, Or.inl ⟨rfl, rfl⟩, ⟨[_], [], .cons ⟨_, _, ⟨_, rfl, isNumber_of (rest := []) ?_ rfl⟩, ⟨_, rfl, isNumber_of (rest := []) ?_ rfl⟩, rfl⟩ .nil, .nil, rfl⟩,
    ⟨_, rfl, ⟨rfl, .frac .none [1] .none [1, 0, 0, 8, 0], ?_, ?_, ?_, ?_, ?_, ?_⟩, Or.inl ⟨rfl, rfl⟩⟩, ⟨_, exampleBall_sobogus, rfl⟩, .nil,
    ⟨_, .cons ⟨⟨_, rfl, two_numbers (r1 := " 0".toList) (r2 := []) ?_ ?_ ?_ rfl⟩, ⟨_, rfl, two_numbers (r1 := " 1".toList) (r2 := []) ?_ ?_ ?_ rfl⟩⟩
      (.cons ⟨⟨_, rfl, two_numbers (r1 := " 25".toList) (r2 := []) ?_ ?_ ?_ rfl⟩, ⟨_, rfl, two_numbers (r1 := " 0".toList) (r2 := []) ?_ ?_ ?_ rfl⟩⟩
      (.cons ⟨⟨_, rfl, two_numbers (r1 := " 25".toList) (r2 := []) ?_ ?_ ?_ rfl⟩, ⟨_, rfl, two_numbers (r1 := " 0".toList) (r2 := []) ?_ ?_ ?_ rfl⟩⟩ .nil)),
      exampleBall_portals⟩,
    [⟨13 / 4, 39 / 2, 0, 0, 1 / 40, 11 / 200, false⟩, ⟨11 / 4, 97 / 4, 0, -1, 3 / 100, 1 / 16, true⟩], 
    .cons ⟨⟨_, rfl, isNumber_of (rest := []) ?_ rfl⟩, ⟨_, rfl, isNumber_of (rest := []) ?_ rfl⟩, ⟨_, rfl, isNumber_of (rest := []) ?_ rfl⟩,
      ⟨_, rfl, isNumber_of (rest := []) ?_ rfl⟩, ⟨_, rfl, isNumber_of (rest := []) ?_ rfl⟩, ⟨_, rfl, isNumber_of (rest := []) ?_ rfl⟩,
      ⟨_, rfl, .none, [0], [], beginsWithInteger_digits _ _ _ ?_ ?_, ?_, ?_⟩⟩
    (.cons ⟨⟨_, rfl, isNumber_of (rest := []) ?_ rfl⟩, ⟨_, rfl, isNumber_of (rest := []) ?_ rfl⟩, ⟨_, rfl, isNumber_of (rest := []) ?_ rfl⟩,
      ⟨_, rfl, isNumber_of (rest := []) ?_ rfl⟩, ⟨_, rfl, isNumber_of (rest := []) ?_ rfl⟩, ⟨_, rfl, isNumber_of (rest := []) ?_ rfl⟩,
      ⟨_, rfl, .none, [1], [], beginsWithInteger_digits _ _ _ ?_ ?_, ?_, ?_⟩⟩ .nil), rfl, rfl, rfl, rfl, rfl⟩
  all_goals first
    | decide +kernel
    | (intro c h; cases h)
    | (unfold Literal.Wellformed; decide +kernel)
    | (unfold Literal.Small; decide +kernel)
    | (unfold Spells; decide +kernel)
    | (unfold Represents; decide +kernel)
    | exact fun h => h

/-- It is loaded. -/
example (b : Build) : parseBallScene b (.mk "" [] [exampleBallRoot]) = .ok exampleBallScene := C70_loads_partial b _ _ (exampleBall_describes b)

/-- The hypothesis of `C70_returns_partial` holds of it. -/
example : BallTextsPresent exampleBallRoot ∧ SolverOptionsKnown .balls2D exampleBallRoot ∧
    ∀ nd t, exampleBallRoot.first "integrator" = some nd → nd.attr "dt" = some t → (extractRational t.toList).Returns := by
  refine ⟨?_, ⟨fun h => (by cases h), ?_⟩, ?_⟩
  · have hd : ∀ (l : List XmlNode) (as : List String), (l.all fun nd => as.all fun a => match nd.attr a with | none => true | some t => !t.toList.all isSpace) = true →
        ∀ nd ∈ l, ∀ a ∈ as, ∀ t, nd.attr a = some t → ¬ Blank t.toList := by
      intro l as h nd hnd a ha t ht hb
      have := List.all_eq_true.mp (List.all_eq_true.mp h nd hnd) a ha
      rw [ht] at this
      simp only [Bool.not_eq_true', List.all_eq_false] at this
      obtain ⟨c, hc, hcs⟩ := this
      exact hcs (hb c hc)
    exact ⟨hd _ _ (by decide +kernel), hd _ _ (by decide +kernel), hd _ _ (by decide +kernel)⟩
  · rintro nd h
    obtain rfl := Option.some.inj h
    refine ⟨fun t ht => ?_, fun _ h => absurd (Option.some.inj h) (by decide)⟩
    obtain rfl := Option.some.inj ht
    exact Or.inl rfl
  · rintro nd t h ht
    obtain rfl := Option.some.inj h
    obtain rfl := Option.some.inj ht
    exact Or.inr ⟨⟨1, 10080⟩, by decide +kernel⟩

/-! ## Files that are not in the format -/

/-- A scene of `verlet` steps of length 1/2 with some more elements -/
def sceneWith (l : List XmlNode) : XmlNode := .mk "" [] [.mk "ball2d_scene" [] (.mk "integrator" [("type", "verlet"), ("dt", "0.5")] [] :: l)]

/-- What it is without them -/
def emptyBallScene : BallScene := ⟨"", none, [], "0.5", ⟨1, 2⟩, .verlet, ⟨none, none, none, none, none, none⟩, [], [], [], [], [], [], [], []⟩

/-- A ball -/
def ballNode (x m fixed : String) : XmlNode := .mk "ball" [("x", x), ("y", "0"), ("vx", "0"), ("vy", "0"), ("m", m), ("r", "1"), ("fixed", fixed)] []

theorem not_number {s rest : List Char} {q q' : ℚ} {c : Char} (h : extractScalar s = .value q rest) (hc : rest.head? = some c) (hs : isSpace c = false) :
    ¬ IsNumber s q' := by
  rintro ⟨rest', h1, h2⟩
  rw [(extractScalar_value s q' rest').mpr h1] at h
  injection h with _ hr
  subst hr
  cases rest' with
  | nil => cases hc
  | cons d t =>
    obtain rfl := Option.some.inj hc
    rw [h2 d (by simp)] at hs
    cases hs

/-- **C70 is false in full**: a file that is not in the format is loaded, here an end time of "1O" (with the letter) as 1. -/
theorem C70_false_trailing (b : Build) : parseBallScene b (sceneWith [.mk "end_time" [("t", "1O")] []]) = .ok { emptyBallScene with endTime := some 1 } ∧
    ¬ ∃ s, DescribesBallScene exactReading b (sceneWith [.mk "end_time" [("t", "1O")] []]) s := by
  constructor
  · obtain ⟨_ | _, _ | _⟩ := b <;> decide +kernel
  · rintro ⟨s, root, hroot, -, he, -⟩
    obtain rfl := Option.some.inj hroot
    rcases he with ⟨h, -⟩ | ⟨nd, x, hnd, ⟨t, ht, hx⟩, -⟩
    · cases h
    · obtain rfl := Option.some.inj hnd
      obtain rfl := Option.some.inj ht
      exact not_number (q := 1) (rest := ['O']) (c := 'O') (by decide +kernel) rfl (by decide +kernel) hx

/-- **C70 is false in full**: for a ball, a text that is no number is zero, and a flag "true" is false. -/
theorem C70_false_silent (b : Build) : parseBallScene b (sceneWith [ballNode "left" "1" "true"]) =
    .ok { emptyBallScene with q := [0, 0], v := [0, 0], m := [1, 1], r := [1], fixed := [false] } := by
  obtain ⟨_ | _, _ | _⟩ := b <;> decide +kernel

/-- **C70 is false in full**: a timestep in scientific notation is loaded as a different number, and one can be a division by zero. -/
theorem C70_false_timestep (b : Build) :
    parseBallScene b (.mk "" [] [.mk "ball2d_scene" [] [.mk "integrator" [("type", "verlet"), ("dt", "1e-4")] []]]) =
      .ok { emptyBallScene with dtText := "1e-4", dt := ⟨1, 1⟩ } ∧
    parseBallScene b (.mk "" [] [.mk "ball2d_scene" [] [.mk "integrator" [("type", "verlet"), ("dt", "1/0")] []]]) =
      .ok { emptyBallScene with dtText := "1/0", dt := ⟨1, 0⟩ } := by
  obtain ⟨_ | _, _ | _⟩ := b <;> decide +kernel

/-- **Values without a check**: a ball of negative mass; a coefficient of restitution larger than one. -/
theorem C70_false_unchecked (b : Build) : parseBallScene b (sceneWith [ballNode "0" "-1" "0"]) =
      .ok { emptyBallScene with q := [0, 0], v := [0, 0], m := [-1, -1], r := [1], fixed := [false] } ∧
    parseBallScene b (sceneWith [.mk "impact_operator" [("type", "gauss_seidel"), ("CoR", "5"), ("v_tol", "0"), ("cache_impulses", "0")] []]) =
      .ok { emptyBallScene with solvers := ⟨some (.gaussSeidel 0), some false, some 5, none, none, none⟩ } := by
  obtain ⟨_ | _, _ | _⟩ := b <;> decide +kernel

/-- **An empty text** for a number of a ball: the program goes on with a variable that was never written. -/
theorem C70_false_blank (b : Build) : parseBallScene b (sceneWith [ballNode "" "1" "0"]) = .ub := by
  obtain ⟨_ | _, _ | _⟩ := b <;> decide +kernel

/-- **An unknown option** of the So-bogus solver ends the program. -/
theorem C70_false_exit (b : Build) : parseBallScene b (sceneWith [.mk "sobogus_friction_solver" [("mu", "0.2"), ("CoR", "0.7"), ("max_iters", "5000"), ("tol", "1.0e-6"),
      ("eval_every", "20"), ("staggering", "geometric"), ("cache_impulses", "all")] []]) = .exit := by
  obtain ⟨_ | _, _ | _⟩ := b <;> decide +kernel

/-- **The documented example is rejected**: the one above `loadStaggeredProjectionsFrictionSolver` in ball2dutils/Ball2DSceneParser.cpp:987-991, whatever the program is
built with. -/
theorem C70_false_documented (b : Build) : parseBallScene b (sceneWith [.mk "staggered_projections_friction_solver" [("mu", "2.0"), ("CoR", "0.8"), ("max_iters", "50"),
      ("tol", "1.0e-8"), ("staggering", "geometric"), ("internal_warm_start_alpha", "1"), ("internal_warm_start_beta", "1")]
      [.mk "lcp_impact_solver" [("name", "ipopt"), ("tol", "1.0e-12"), ("linear_solvers", "ma97")] [],
       .mk "mdp_friction_solver" [("name", "ipopt"), ("tol", "1.0e-12"), ("linear_solvers", "ma97")] []]]) = .fail := by
  obtain ⟨_ | _, _ | _⟩ := b <;> decide +kernel

/-- **Lines are joined**: where a line ends, words run into each other, so that a file whose attributes begin at the start of a line is a different file to the
program. -/
theorem C70_false_lines : joinLines "<ball\nx=\"1\"".toList = "<ballx=\"1\"".toList ∧ joinLines "x=\"12\n34\"".toList = "x=\"1234\"".toList := by
  decide +kernel

/-- **C70.** A line break is as if it were not there. -/
theorem C70_lines (a c : List Char) : joinLines (a ++ '\n' :: c) = joinLines (a ++ c) := by simp [joinLines]

end Scisim
