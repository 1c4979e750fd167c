import Verif.Lemmas.SceneRigid2D
import Verif.Props.SceneBall2D
/-!
# C71: scene files of the simulation of two dimensional rigid bodies

`DescribesRigid2DScene` (Spec/SceneRigid2D.lean) says what a scene file means, element by element; `exactReading` is the format (Spec/SceneText.lean).
-/

namespace Scisim

/-- **C71 (partial).** A scene file in the format is loaded, and as the scene it describes. Missing, since it is false: files that are not in the format are
not all rejected (`C71_false_…`); which are accepted, and as what, is `C71_accepts`. -/
theorem C71_loads_partial (b : Build) (doc : XmlNode) (s : Rigid2DScene) (h : DescribesRigid2DScene exactReading b doc s) : parseRigid2DScene b doc = .ok s :=
  (parseRigid2DScene_ok b doc s).mpr (DescribesRigid2DScene.mono exact_le_lenient h)

/-- **C71.** A file describes at most one scene. -/
theorem C71_unique (b : Build) (doc : XmlNode) (s s' : Rigid2DScene) (h : DescribesRigid2DScene exactReading b doc s)
    (h' : DescribesRigid2DScene exactReading b doc s') : s = s' := by
  have h1 := C71_loads_partial b doc s h
  rw [C71_loads_partial b doc s' h'] at h1
  exact (Outcome.ok.inj h1).symm

/-- **C71 (what is accepted).** The files that are loaded are those that describe a scene when their texts are read as `lenientReading` says, and they are
loaded as that scene. -/
theorem C71_accepts (b : Build) (doc : XmlNode) (s : Rigid2DScene) : parseRigid2DScene b doc = .ok s ↔ DescribesRigid2DScene lenientReading b doc s :=
  parseRigid2DScene_ok b doc s

theorem flatMap_triple_length {α β : Type} (f g k : α → β) (l : List α) : (l.flatMap fun c => [f c, g c, k c]).length = 3 * l.length := by
  induction l with
  | nil => rfl
  | cons a l ih =>
    rw [List.flatMap_cons, List.length_append, ih, List.length_cons]
    simp
    omega

/-- **C71.** Every scene that is loaded, from whatever file: the vectors have the sizes that the number of bodies demands; every body has one of the shapes;
densities, the end time and, if there is an integrator, the timestep are positive; shapes have a positive size; there are not both an impact operator and a friction
solver; a friction solver comes with its map, with a friction coefficient that is not negative and a coefficient of restitution between zero and one. -/
theorem C71_valid (b : Build) (doc : XmlNode) (s : Rigid2DScene) (h : parseRigid2DScene b doc = .ok s) :
    (s.q.length = 3 * s.rho.length ∧ s.v.length = 3 * s.rho.length ∧ s.indices.length = s.rho.length ∧ s.fixed.length = s.rho.length) ∧
    (∀ i ∈ s.indices, i < s.geometry.length) ∧ (∀ r ∈ s.rho, 0 < r) ∧
    (∀ r, .circle r ∈ s.geometry → 0 < r) ∧ (∀ x y, .box (.finite x, .finite y) ∈ s.geometry → 0 < x ∧ 0 < y) ∧
    (s.integrator.isSome → 0 < s.dt.num) ∧ (∀ t, s.endTime = some t → 0 < t) ∧
    (s.solvers.impactOperator = none ∨ s.solvers.frictionSolver = none) ∧
    (s.solvers.impactOperator.isSome → s.solvers.impactMap.isSome ∧ s.solvers.CoR.isSome) ∧
    (s.solvers.frictionSolver.isSome → s.solvers.ifMap.isSome ∧ (∃ mu, s.solvers.mu = some mu ∧ 0 ≤ mu) ∧ ∃ e, s.solvers.CoR = some e ∧ 0 ≤ e ∧ e ≤ 1) := by
  obtain ⟨root, -, -, he, -, hi, ⟨c, hc, hcs⟩, -, -, hg, bodies, hb, hq, hv, hr, hix, hf⟩ := (parseRigid2DScene_ok b doc s).mp h
  have hmem : ∀ {n : ℕ} (l : List XmlNode) (bs : List Body2DElement), List.Forall₂ (IsBody2D lenientReading n) l bs → ∀ c ∈ bs, c.geo < n ∧ 0 < c.rho := by
    intro n l bs hl
    induction hl with
    | nil => intro c hc; cases hc
    | cons ha _ ih =>
      intro c hc
      rcases List.mem_cons.mp hc with rfl | hc
      · exact ⟨ha.2.2.2.2.2.2.2.1, ha.2.2.2.2.2.1⟩
      · exact ih c hc
  have hgeo : ∀ (l : List XmlNode) (gs : List Geometry2DElement), List.Forall₂ (IsGeometry2D lenientReading) l gs → ∀ g ∈ gs, ∃ nd, IsGeometry2D lenientReading nd g := by
    intro l gs hl
    induction hl with
    | nil => intro c hc; cases hc
    | cons ha _ ih =>
      intro c hc
      rcases List.mem_cons.mp hc with rfl | hc
      · exact ⟨_, ha⟩
      · exact ih c hc
  refine ⟨⟨?_, ?_, ?_, ?_⟩, ?_, ?_, ?_, ?_, ?_, ?_, ?_, ?_, ?_⟩
  · rw [hq, hr, flatMap_triple_length, List.length_map]
  · rw [hv, hr, flatMap_triple_length, List.length_map]
  · rw [hix, hr, List.length_map, List.length_map]
  · rw [hf, hr, List.length_map, List.length_map]
  · intro i hi
    rw [hix] at hi
    obtain ⟨c, hc, rfl⟩ := List.mem_map.mp hi
    exact (hmem _ _ hb c hc).1
  · intro r hr'
    rw [hr] at hr'
    obtain ⟨c, hc, rfl⟩ := List.mem_map.mp hr'
    exact (hmem _ _ hb c hc).2
  · intro r hr
    obtain ⟨nd, -, -, h0⟩ := hgeo _ _ hg _ hr
    exact h0
  · intro x y hr
    obtain ⟨nd, -, -, h0⟩ := hgeo _ _ hg _ hr
    exact h0
  · rcases hi with ⟨-, -, -, hi⟩ | ⟨nd, k, -, hst, -, -⟩
    · rw [hi]
      intro h
      cases h
    · exact fun _ => hst.2.2
  · rintro t ht
    rcases he with ⟨-, h0⟩ | ⟨nd, x, -, -, hx, h0⟩
    · rw [h0] at ht
      cases ht
    · rw [h0] at ht
      obtain rfl := Option.some.inj ht
      exact hx
  · rw [hcs]
    cases c
    · exact Or.inl rfl
    · exact Or.inr rfl
    · exact Or.inl rfl
  · rw [hcs]
    cases hc with
    | ignored => simp [ContactChoice.setup]
    | impact _ _ _ _ _ hca _ =>
      rw [if_neg (by decide)] at hca
      obtain ⟨k, -, rfl⟩ := hca
      simp [ContactChoice.setup]
    | staggered => simp [ContactChoice.setup]
    | sobogus => simp [ContactChoice.setup]
    | grr hp => cases hp
  · rw [hcs]
    cases hc with
    | ignored => simp [ContactChoice.setup]
    | impact => simp [ContactChoice.setup]
    | staggered _ _ _ _ hf =>
      obtain ⟨_, _, _, _, _, _, _, _, ⟨_, h1, _, h2, h3⟩, _⟩ := hf
      exact fun _ => ⟨rfl, ⟨_, rfl, h1⟩, _, rfl, h2, h3⟩
    | sobogus _ _ _ _ hf =>
      obtain ⟨_, _, _, ⟨_, h1, _, h2, h3⟩, _⟩ := hf
      exact fun _ => ⟨rfl, ⟨_, rfl, h1⟩, _, rfl, h2, h3⟩
    | grr hp => cases hp

theorem massDiagonal2D_ok (geometry : List Geometry2DElement) : ∀ l : List (ℚ × ℕ), (∀ p ∈ l, p.2 < geometry.length) →
    ∃ m, massDiagonal2D geometry l = .ok m ∧ m.length = 3 * l.length ∧ ∀ i rho k g, l[i]? = some (rho, k) → geometry[k]? = some g → ∀ M I, UniformShape rho g M I →
      m[3 * i]? = some (some M) ∧ m[3 * i + 1]? = some (some M) ∧ m[3 * i + 2]? = some (some I)
  | [], _ => ⟨[], rfl, rfl, fun i rho k g h => by simp at h⟩
  | (rho, k) :: l, h => by
    obtain ⟨m, hm, hlen, hrest⟩ := massDiagonal2D_ok geometry l fun p hp => h p (List.mem_cons_of_mem _ hp)
    have hk := h (rho, k) (by simp)
    obtain ⟨g, hg⟩ : ∃ g, geometry[k]? = some g := ⟨geometry[k], List.getElem?_eq_getElem hk⟩
    refine ⟨(g.massAndInertia rho).map (·.1) :: (g.massAndInertia rho).map (·.1) :: (g.massAndInertia rho).map (·.2) :: m, ?_, ?_, ?_⟩
    · simp only [massDiagonal2D, hg, hm]
      rfl
    · simp [hlen]
      omega
    · intro i rho' k' g' hi hg' M I hs
      cases i with
      | zero =>
        simp only [List.getElem?_cons_zero, Option.some.injEq, Prod.mk.injEq] at hi
        obtain ⟨rfl, rfl⟩ := hi
        rw [hg] at hg'
        cases hg'
        cases hs with
        | disc r =>
          simp only [Geometry2DElement.massAndInertia, circleMassAndInertia, Option.map_some]
          refine ⟨?_, ?_, ?_⟩ <;> simp <;> ring
        | rectangle x y =>
          simp only [Geometry2DElement.massAndInertia, boxMassAndInertia, Option.map_some, V2.normSq, V2.dot]
          refine ⟨?_, ?_, ?_⟩ <;> simp <;> ring
      | succ i =>
        have := hrest i rho' k' g' (by simpa using hi) hg' M I hs
        rw [show 3 * (i + 1) = 3 * i + 3 by ring]
        simpa [List.getElem?_cons_succ] using this

/-- **C71.** The mass matrix of a scene that is loaded: the computation does not leave the list of shapes, and a body that is a disc or a rectangle of finite
size gets the mass and the moment of inertia of that shape with its density. -/
theorem C71_masses (b : Build) (doc : XmlNode) (s : Rigid2DScene) (h : parseRigid2DScene b doc = .ok s) :
    ∃ m, massDiagonal2D s.geometry (s.rho.zip s.indices) = .ok m ∧ m.length = 3 * s.rho.length ∧
      ∀ i rho k g, s.rho[i]? = some rho → s.indices[i]? = some k → s.geometry[k]? = some g → ∀ M I, UniformShape rho g M I →
        m[3 * i]? = some (some M) ∧ m[3 * i + 1]? = some (some M) ∧ m[3 * i + 2]? = some (some I) := by
  obtain ⟨⟨-, -, hl, -⟩, hi, -⟩ := C71_valid b doc s h
  obtain ⟨m, hm, hlen, hrest⟩ := massDiagonal2D_ok s.geometry (s.rho.zip s.indices) fun p hp => hi _ (List.of_mem_zip hp).2
  refine ⟨m, hm, ?_, ?_⟩
  · rw [hlen, List.length_zip, hl, min_self]
  · intro i rho k g hr hk hg M I hs
    exact hrest i rho k g (by rw [List.getElem?_zip_eq_some]; exact ⟨hr, hk⟩) hg M I hs

/-- **C71 (partial).** Loading succeeds or reports an error, for every file in which no list is empty, the options of the solver are known, and the
reader of fractions returns on the text of the timestep. Without these restrictions it is false: `C71_false_empty`, `C71_false_exit`. -/
theorem C71_returns_partial (b : Build) (doc : XmlNode) (h : ∀ root, doc.first "rigidbody2d_scene" = some root → Rigid2DListsPresent root ∧
      SolverOptionsKnown .rigidBody2D root ∧
      ∀ nd t, root.first "integrator" = some nd → nd.attr "dt" = some t → (extractRational t.toList).Returns) : (parseRigid2DScene b doc).Returns := by
  refine (requireChild_returns _ _).bind fun root hroot => ?_
  obtain ⟨⟨hcam, hg, hp, hgeo, hb⟩, hs, ht⟩ := h root ((requireChild_ok _ _ _).mp hroot)
  have hscript : (loadScripting root).Returns := by
    unfold loadScripting
    split
    · exact .ok _
    · exact require_returns _ _
  have hend : (loadEndTime root).Returns := by
    unfold loadEndTime
    split
    · exact .ok _
    · exact (scalar_returns _ _).bind fun _ _ => (failIf_returns _).bind fun _ _ => .ok _
  have hcamera : (loadCamera2D root).Returns := by
    unfold loadCamera2D
    cases hc : root.first "camera" with
    | none => exact .ok _
    | some nd =>
      exact (loadPoint2_returns _ _ (hcam nd hc)).bind fun _ _ => (scalar_returns _ _).bind fun _ _ => (failIf_returns _).bind fun _ _ => (int_returns _ _).bind fun _ _ =>
        (failIf_returns _).bind fun _ _ => (flag_returns _ _).bind fun _ _ => (flag_returns _ _).bind fun _ _ => .ok _
  have hint : (loadRigid2DIntegrator root).Returns := by
    unfold loadRigid2DIntegrator
    cases hn : root.first "integrator" with
    | none => exact .ok _
    | some nd =>
      refine Outcome.Returns.bind ?_ fun _ _ => (require_returns _ _).bind fun _ _ => ?_
      · exact (require_returns _ _).bind fun t h => (ht nd t hn ((require_ok _ _ _).mp h)).bind fun _ _ => (failIf_returns _).bind fun _ _ => .ok _
      · split_ifs
        · exact .ok _
        · exact .ok _
        · exact .fail
  refine hscript.bind fun _ _ => hend.bind fun _ _ => hcamera.bind fun _ _ => hint.bind fun _ _ => (loadSolvers_returns b .rigidBody2D root hs).bind fun _ _ =>
    Outcome.Returns.bind (mapNodes_returns _ _ fun nd hnd => loadPoint2_returns _ _ (hg nd hnd)) fun _ _ =>
    Outcome.Returns.bind (mapNodes_returns _ _ fun nd hnd => ?_) fun _ _ =>
    Outcome.Returns.bind (C48_no_undefined _ _ _ _) fun _ _ =>
    Outcome.Returns.bind (mapNodes_returns _ _ fun nd hnd => ?_) fun geo _ => Outcome.Returns.bind (mapNodes_returns _ _ fun nd hnd => ?_) fun _ _ => .ok _
  · exact (loadPoint2_returns _ _ (hp nd hnd).1).bind fun _ _ => (loadPoint2_returns _ _ (hp nd hnd).2).bind fun _ _ => (failIf_returns _).bind fun _ _ => .ok _
  · refine (require_returns _ _).bind fun _ _ => ?_
    split_ifs
    · exact (scalar_returns _ _).bind fun _ _ => (failIf_returns _).bind fun _ _ => .ok _
    · exact (loadPoint2_returns _ _ (hgeo nd hnd)).bind fun _ _ => (failIf_returns _).bind fun _ _ => .ok _
    · exact .fail
  · refine (loadPoint2_returns _ _ (hb nd hnd).1).bind fun _ _ => (scalar_returns _ _).bind fun _ _ => (loadPoint2_returns _ _ (hb nd hnd).2).bind fun _ _ =>
      (scalar_returns _ _).bind fun _ _ => (scalar_returns _ _).bind fun _ _ => (failIf_returns _).bind fun _ _ => (int_returns _ _).bind fun _ _ =>
      (failIf_returns _).bind fun _ _ => Outcome.Returns.bind ?_ fun _ _ => .ok _
    unfold loadFixed
    split
    · exact .ok _
    · exact checked_returns _

/-! ## An example -/

/-- assets/rigidbody2d/lees_edwards, with a second shape and a fixed body -/
def exampleRigid2DRoot : XmlNode :=
  .mk "rigidbody2d_scene" [] [
    .mk "camera" [("center", "0.0 0.0"), ("scale", "3.80562"), ("fps", "50"), ("render_at_fps", "0"), ("locked", "0")] [],
    .mk "integrator" [("type", "symplectic_euler"), ("dt", "0.01")] [],
    .mk "sobogus_friction_solver" [("mu", "0.3"), ("CoR", "0.7"), ("max_iters", "5000"), ("eval_every", "25"), ("tol", "1.0e-12"), ("staggering", "geometric"),
      ("cache_impulses", "none")] [],
    .mk "near_earth_gravity" [("f", "0 -9.81")] [],
    .mk "static_plane" [("x", "0 -3"), ("n", "0 1")] [],
    .mk "static_plane" [("x", "0 3"), ("n", "0 -1")] [],
    .mk "static_plane" [("x", "-3 0"), ("n", "1 0")] [],
    .mk "static_plane" [("x", "3 0"), ("n", "-1 0")] [],
    .mk "static_plane" [("x", "0 -5"), ("n", "0 1")] [],
    .mk "lees_edwards_portal" [("planeA", "0"), ("planeB", "1"), ("v", "-1.0"), ("bounds", "3.0")] [],
    .mk "planar_portal" [("planeA", "2"), ("planeB", "3")] [],
    .mk "geometry" [("type", "circle"), ("r", "0.5")] [],
    .mk "geometry" [("type", "box"), ("r", "0.5 0.25")] [],
    .mk "rigid_body" [("x", "-1.25 2.75"), ("theta", "0"), ("v", "0 0"), ("omega", "0"), ("rho", "1"), ("geo_idx", "0")] [],
    .mk "rigid_body" [("x", "0 -2.4"), ("theta", "0.5"), ("v", "0 1"), ("omega", "-2"), ("rho", "3"), ("geo_idx", "1"), ("fixed", "1")] []]

def exampleRigid2DScene : Rigid2DScene where
  script := ""
  endTime := none
  camera := some ⟨(.finite 0, .finite 0), 380562 / 100000, 50, false, false⟩
  dtText := "0.01"
  dt := ⟨1, 100⟩
  integrator := some .symplecticEuler
  solvers := ⟨none, none, some (7 / 10), some (.sobogus 25), some (3 / 10), some (.geometric (1 / 1000000000000) 5000 .none)⟩
  forces := [(.finite 0, .finite (-981 / 100))]
  planes := [⟨(.finite 0, .finite (-5)), (.finite 0, .finite 1)⟩]
  portals := [⟨⟨(.finite (-3), .finite 0), (.finite 1, .finite 0)⟩, ⟨(.finite 3, .finite 0), (.finite (-1), .finite 0)⟩, (0, 0)⟩,
    ⟨⟨(.finite 0, .finite (-3)), (.finite 0, .finite 1)⟩, ⟨(.finite 0, .finite 3), (.finite 0, .finite (-1))⟩, (-1, 3)⟩]
  geometry := [.circle (1 / 2), .box (.finite (1 / 2), .finite (1 / 4))]
  q := [.finite (-5 / 4), .finite (11 / 4), .finite 0, .finite 0, .finite (-12 / 5), .finite (1 / 2)]
  v := [.finite 0, .finite 0, .finite 0, .finite 0, .finite 1, .finite (-2)]
  rho := [1, 3]
  indices := [0, 1]
  fixed := [false, true]

theorem isEntry_of {s : List Char} {q : ℚ} (h : extractScalar s = .value q []) (hs : s.all fun c => !isSpace c) : IsEntry s (.finite q) := by
  obtain ⟨n, ⟨ws, hws, he, hg, -⟩, hq, hd⟩ := (extractScalar_value s q []).mp h
  have : ws = [] := by
    cases ws with
    | nil => rfl
    | cons c ws =>
      have h1 := hws c (by simp)
      have h2 := List.all_eq_true.mp hs c (by rw [he]; simp)
      rw [h1] at h2
      cases h2
  subst this
  exact ⟨n, hg, by simpa using he, hq, hd⟩

theorem pair_of {nd : XmlNode} {a t : String} (l r : List Char) {x y : ℚ} (ht : nd.attr a = some t)
    (h : t.toList = l ++ ' ' :: r ∧ (l.all fun c => !isSpace c) = true ∧ (r.all fun c => !isSpace c) = true ∧ extractScalar l = .value x [] ∧ extractScalar r = .value y []) :
    nd.Pair exactReading a (.finite x, .finite y) := by
  obtain ⟨ht', hl, hr, hx, hy⟩ := h
  have hne : ∀ s : List Char, (s.all fun c => !isSpace c) = true → ' ' ∉ s := by
    intro s hs hm
    exact absurd (List.all_eq_true.mp hs _ hm) (by decide)
  refine ⟨t, ht, ?_, [l, r], ?_, ?_, .cons (isEntry_of hx hl) (.cons (isEntry_of hy hr) .nil)⟩
  · rw [ht']
    simp
  · rw [ht']
    simp [List.intercalate]
  · intro s hs
    simp only [List.mem_cons, List.not_mem_nil, or_false] at hs
    rcases hs with rfl | rfl
    · exact hne _ hl
    · exact hne _ hr

theorem number_of {nd : XmlNode} {a t : String} {x : ℚ} (ht : nd.attr a = some t) (h : extractScalar t.toList = .value x []) : nd.Number exactReading a x :=
  ⟨t, ht, isNumber_of h rfl⟩

theorem int_of {nd : XmlNode} {a t : String} (sg : Sign) (ds : List Digit) {z : ℤ} (ht : nd.attr a = some t)
    (h : t.toList = sg.chars ++ digitText ds ∧ ds ≠ [] ∧ z = sg.factor * digitsNat ds ∧ -2 ^ 31 ≤ z ∧ z < 2 ^ 31) : nd.Int exactReading a z :=
  ⟨t, ht, sg, ds, [], beginsWithInteger_digits _ _ _ h.1 h.2.1, fun _ hc => (by cases hc), h.2.2⟩

theorem flag_of {nd : XmlNode} {a t : String} (ds : List Digit) {f : Bool} (ht : nd.attr a = some t)
    (h : t.toList = digitText ds ∧ ds ≠ [] ∧ (digitsNat ds : ℤ) = if f then 1 else 0) : nd.Flag exactReading a f :=
  ⟨t, ht, .none, ds, [], beginsWithInteger_digits _ _ _ h.1 h.2.1, fun _ hc => (by cases hc), by simpa [Sign.factor] using h.2.2⟩

theorem unsigned_of {nd : XmlNode} {a t : String} (ds : List Digit) {n : ℕ} (ht : nd.attr a = some t)
    (h : t.toList = digitText ds ∧ ds ≠ [] ∧ n = digitsNat ds ∧ n < 2 ^ 32) : nd.Unsigned exactReading a n :=
  ⟨t, ht, .none, ds, [], beginsWithInteger_digits _ _ _ h.1 h.2.1, fun _ hc => (by cases hc), by decide, h.2.2⟩

theorem exampleRigid2D_sobogus : DescribesContacts exactReading b .rigidBody2D exampleRigid2DRoot
    (.friction ⟨3 / 10, 7 / 10, .sobogus 25, .geometric (1 / 1000000000000) 5000 .none⟩) := by
  refine .sobogus rfl rfl rfl (fun h => by cases h) ⟨1 / 1000000000000, 5000, 25, ⟨number_of rfl ?_, ?_, number_of rfl ?_, ?_, ?_⟩,
    ⟨number_of rfl ?_, ?_, int_of .none [5, 0, 0, 0] rfl ?_, ?_⟩, int_of .none [2, 5] rfl ?_, ?_, ?_, rfl, .geometric (by decide) rfl rfl⟩
  all_goals decide +kernel

theorem exampleRigid2D_portals : DescribesPortals exactReading (fun x => 0 ≤ x) exampleRigid2DRoot
    [⟨(.finite 0, .finite (-3)), (.finite 0, .finite 1)⟩, ⟨(.finite 0, .finite 3), (.finite 0, .finite (-1))⟩, ⟨(.finite (-3), .finite 0), (.finite 1, .finite 0)⟩,
      ⟨(.finite 3, .finite 0), (.finite (-1), .finite 0)⟩, ⟨(.finite 0, .finite (-5)), (.finite 0, .finite 1)⟩] exampleRigid2DScene.planes exampleRigid2DScene.portals := by
  refine ⟨[(2, 3)], [(0, 1)], [(-1, 3)], [_], [_], .cons ⟨unsigned_of [2] rfl ?_, unsigned_of [3] rfl ?_⟩ .nil, .cons ⟨unsigned_of [0] rfl ?_, unsigned_of [1] rfl ?_⟩ .nil,
    .cons ⟨number_of rfl ?_, number_of rfl ?_, ?_⟩ .nil, ?_, ?_, rfl, .cons ⟨rfl, rfl, rfl⟩ .nil, .cons ⟨rfl, rfl, rfl⟩ .nil, ?_⟩
  all_goals decide +kernel

/-- The hypothesis of `C71_loads_partial` holds of the example. -/
theorem exampleRigid2D_describes (b : Build) : DescribesRigid2DScene exactReading b (.mk "" [] [exampleRigid2DRoot]) exampleRigid2DScene := by
  refine ⟨exampleRigid2DRoot, rfl, Or.inl ⟨rfl, rfl⟩, Or.inl ⟨rfl, rfl⟩,
    Or.inr ⟨_, _, rfl, rfl, pair_of "0.0".toList "0.0".toList rfl ?_, number_of rfl ?_, ?_, int_of .none [5, 0] rfl ?_, ?_, flag_of [0] rfl ?_, flag_of [0] rfl ?_⟩,
    Or.inr ⟨_, _, rfl, ⟨rfl, .dec .none [0] [0, 1], ?_, ?_, ?_, ?_, ?_, ?_⟩, Or.inr ⟨rfl, rfl⟩, rfl⟩,
    ⟨_, exampleRigid2D_sobogus, rfl⟩, .cons (pair_of "0".toList "-9.81".toList rfl ?_) .nil,
    ⟨_, .cons ⟨pair_of "0".toList "-3".toList rfl ?_, pair_of "0".toList "1".toList rfl ?_, ?_⟩
      (.cons ⟨pair_of "0".toList "3".toList rfl ?_, pair_of "0".toList "-1".toList rfl ?_, ?_⟩
      (.cons ⟨pair_of "-3".toList "0".toList rfl ?_, pair_of "1".toList "0".toList rfl ?_, ?_⟩
      (.cons ⟨pair_of "3".toList "0".toList rfl ?_, pair_of "-1".toList "0".toList rfl ?_, ?_⟩
      (.cons ⟨pair_of "0".toList "-5".toList rfl ?_, pair_of "0".toList "1".toList rfl ?_, ?_⟩ .nil)))), exampleRigid2D_portals⟩,
    .cons ⟨rfl, number_of rfl ?_, ?_⟩ (.cons ⟨rfl, pair_of "0.5".toList "0.25".toList rfl ?_, ?_, ?_⟩ .nil),
    [⟨(.finite (-5 / 4), .finite (11 / 4)), 0, (.finite 0, .finite 0), 0, 1, 0, false⟩, ⟨(.finite 0, .finite (-12 / 5)), 1 / 2, (.finite 0, .finite 1), -2, 3, 1, true⟩],
    .cons ⟨pair_of "-1.25".toList "2.75".toList rfl ?_, number_of rfl ?_, pair_of "0".toList "0".toList rfl ?_, number_of rfl ?_, number_of rfl ?_, ?_, int_of .none [0] rfl ?_, ?_,
      Or.inl ⟨rfl, rfl⟩⟩
    (.cons ⟨pair_of "0".toList "-2.4".toList rfl ?_, number_of rfl ?_, pair_of "0".toList "1".toList rfl ?_, number_of rfl ?_, number_of rfl ?_, ?_, int_of .none [1] rfl ?_, ?_,
      Or.inr (flag_of [1] rfl ?_)⟩ .nil), rfl, rfl, rfl, rfl, rfl⟩
  all_goals first
    | decide +kernel
    | (unfold Literal.Wellformed; decide +kernel)
    | (unfold Literal.Small; decide +kernel)
    | (unfold Spells; decide +kernel)
    | (unfold Represents; decide +kernel)
    | (unfold ListScalar.Positive; decide +kernel)
    | exact fun h => h

/-- It is loaded. -/
example (b : Build) : parseRigid2DScene b (.mk "" [] [exampleRigid2DRoot]) = .ok exampleRigid2DScene := C71_loads_partial b _ _ (exampleRigid2D_describes b)

/-- The hypothesis of `C71_returns_partial` holds of it. -/
example : Rigid2DListsPresent exampleRigid2DRoot ∧ SolverOptionsKnown .rigidBody2D exampleRigid2DRoot ∧
    ∀ nd t, exampleRigid2DRoot.first "integrator" = some nd → nd.attr "dt" = some t → (extractRational t.toList).Returns := by
  refine ⟨⟨?_, ?_, ?_, ?_, ?_⟩, ⟨fun _ => rfl, ?_⟩, ?_⟩
  · rintro nd h
    obtain rfl := Option.some.inj h
    decide
  · have : (exampleRigid2DRoot.all "near_earth_gravity").all (fun nd => nd.attr "f" ≠ some "") = true := by decide +kernel
    intro nd hnd
    simpa using List.all_eq_true.mp this nd hnd
  · have : (exampleRigid2DRoot.all "static_plane").all (fun nd => nd.attr "x" ≠ some "" ∧ nd.attr "n" ≠ some "") = true := by decide +kernel
    intro nd hnd
    simpa using List.all_eq_true.mp this nd hnd
  · have : (exampleRigid2DRoot.all "geometry").all (fun nd => nd.attr "r" ≠ some "") = true := by decide +kernel
    intro nd hnd
    simpa using List.all_eq_true.mp this nd hnd
  · have : (exampleRigid2DRoot.all "rigid_body").all (fun nd => nd.attr "x" ≠ some "" ∧ nd.attr "v" ≠ some "") = true := by decide +kernel
    intro nd hnd
    simpa using List.all_eq_true.mp this nd hnd
  · rintro nd h
    obtain rfl := Option.some.inj h
    refine ⟨fun t ht => ?_, fun h => by cases h⟩
    obtain rfl := Option.some.inj ht
    exact Or.inl rfl
  · rintro nd t h ht
    obtain rfl := Option.some.inj h
    obtain rfl := Option.some.inj ht
    exact Or.inr ⟨⟨1, 100⟩, by decide +kernel⟩

/-! ## Files that are not in the format -/

/-- A scene of `verlet` steps of length 1/2 with some more elements -/
def rigid2DWith (l : List XmlNode) : XmlNode := .mk "" [] [.mk "rigidbody2d_scene" [] (.mk "integrator" [("type", "verlet"), ("dt", "0.5")] [] :: l)]

/-- What it is without them -/
def emptyRigid2DScene : Rigid2DScene := ⟨"", none, none, "0.5", ⟨1, 2⟩, some .verlet, ⟨none, none, none, none, none, none⟩, [], [], [], [], [], [], [], [], []⟩

/-- **C71 is false in full**: numbers with a decimal comma are loaded without their fraction. -/
theorem C71_false_trailing (b : Build) : parseRigid2DScene b (rigid2DWith [.mk "near_earth_gravity" [("f", "0 -9,81")] []]) =
      .ok { emptyRigid2DScene with forces := [(.finite 0, .finite (-9))] } ∧
    ¬ ∃ s, DescribesRigid2DScene exactReading b (rigid2DWith [.mk "near_earth_gravity" [("f", "0 -9,81")] []]) s := by
  have hl : parseRigid2DScene b (rigid2DWith [.mk "near_earth_gravity" [("f", "0 -9,81")] []]) = .ok { emptyRigid2DScene with forces := [(.finite 0, .finite (-9))] } := by
    obtain ⟨_ | _, _ | _⟩ := b <;> decide +kernel
  refine ⟨hl, ?_⟩
  rintro ⟨s, hs⟩
  have h1 := C71_loads_partial b _ s hs
  rw [hl] at h1
  cases h1
  obtain ⟨root, hroot, -, -, -, -, -, hf, -⟩ := hs
  obtain rfl := Option.some.inj hroot
  obtain ⟨-, ⟨t, ht, -, texts, hj, hn, he⟩, -⟩ : ∃ _ : True, XmlNode.Pair exactReading (.mk "near_earth_gravity" [("f", "0 -9,81")] []) "f" (.finite 0, .finite (-9)) ∧ True := by
    cases hf with
    | cons h _ => exact ⟨trivial, h, trivial⟩
  obtain rfl := Option.some.inj ht
  have hsplit : texts = ["0".toList, "-9,81".toList] := by
    have hne : texts ≠ [] := by
      rintro rfl
      cases he
    have h := List.splitOn_intercalate ' ' hn hne
    rw [← hj] at h
    rw [← h]
    decide +kernel
  subst hsplit
  cases he with
  | cons _ he =>
    cases he with
    | cons he _ =>
      obtain ⟨n, hg, hn, hq, hd⟩ := he
      rw [hq] at hd
      have h2 := (extractScalar_value n.text n.value []).mpr ⟨n, ⟨[], fun _ h => (by cases h), by simp, hg, fun _ h => by cases h⟩, rfl, hd⟩
      rw [← hn] at h2
      have h3 : extractScalar "-9,81".toList = .value (-9) ",81".toList := by decide +kernel
      rw [h3] at h2
      injection h2 with _ h4
      exact absurd h4 (by decide)

/-- **Spaces and tabs**: two numbers with two spaces between them, or with a tab, are rejected. -/
theorem C71_false_spaces (b : Build) : parseRigid2DScene b (rigid2DWith [.mk "near_earth_gravity" [("f", "0  1")] []]) = .fail ∧
    parseRigid2DScene b (rigid2DWith [.mk "near_earth_gravity" [("f", "0\t1")] []]) = .fail := by
  obtain ⟨_ | _, _ | _⟩ := b <;> decide +kernel

/-- **An empty list**: `std::string::back` is called for the empty text, which is undefined. -/
theorem C71_false_empty (b : Build) : parseRigid2DScene b (rigid2DWith [.mk "near_earth_gravity" [("f", "")] []]) = .ub := by
  obtain ⟨_ | _, _ | _⟩ := b <;> decide +kernel

/-- **Without an integrator** the scene is loaded, with a timestep of zero. -/
theorem C71_false_integrator (b : Build) : parseRigid2DScene b (.mk "" [] [.mk "rigidbody2d_scene" [] []]) =
    .ok { emptyRigid2DScene with dtText := "0", dt := ⟨0, 1⟩, integrator := none } := by
  obtain ⟨_ | _, _ | _⟩ := b <;> decide +kernel

/-- **Infinite numbers**: a body at infinity, and a plane with an infinite normal, which cannot be normalized. -/
theorem C71_false_infinite (b : Build) : parseRigid2DScene b (rigid2DWith [.mk "static_plane" [("x", "-inf 0"), ("n", "inf 0")] []]) =
    .ok { emptyRigid2DScene with planes := [⟨(.inf true, .finite 0), (.inf false, .finite 0)⟩] } := by
  obtain ⟨_ | _, _ | _⟩ := b <;> decide +kernel

/-- **Staggered projections** end the program if the element is otherwise in order: there is no friction operator in this program. -/
theorem C71_false_exit (ipopt : Bool) : parseRigid2DScene (⟨true, ipopt⟩ : Build) (rigid2DWith [.mk "staggered_projections_friction_solver" [("mu", "2.0"), ("CoR", "0.8"),
      ("max_iters", "50"), ("tol", "1.0e-8"), ("staggering", "geometric"), ("internal_warm_start_alpha", "1"), ("internal_warm_start_beta", "1")]
      [.mk "lcp_impact_solver" [("name", "ql"), ("tol", "1.0e-12")] [], .mk "mdp_friction_solver" [("name", "ql"), ("tol", "1.0e-12")] []]]) = .exit := by
  cases ipopt <;> decide +kernel

/-- No file with this element is loaded. -/
theorem C71_staggered (b : Build) (doc root nd : XmlNode) (s : Rigid2DScene) (hroot : doc.first "rigidbody2d_scene" = some root)
    (h : root.first "staggered_projections_friction_solver" = some nd) : parseRigid2DScene b doc ≠ .ok s := by
  intro hs
  obtain ⟨root', hroot', -, -, -, -, ⟨c, hc, -⟩, -⟩ := (parseRigid2DScene_ok b doc s).mp hs
  rw [hroot] at hroot'
  cases hroot'
  cases hc with
  | ignored _ h2 => rw [h] at h2; cases h2
  | impact _ h2 => rw [h] at h2; cases h2
  | staggered _ _ _ _ hf =>
    obtain ⟨_, _, _, _, _, _, _, _, _, _, _, _, _, _, hop, _⟩ := hf
    cases hop
  | sobogus _ h2 => rw [h] at h2; cases h2
  | grr hp => cases hp

/-- **An option that is ignored**: the choice of impulses to cache, with `stabilized`. -/
theorem C71_false_cache (b : Build) : ∀ c ∈ ["none", "normal", "normal_and_friction"], parseRigid2DScene b (rigid2DWith [.mk "sobogus_friction_solver" [("mu", "0.2"), ("CoR", "0.7"), ("max_iters", "5000"), ("tol", "1.0e-6"),
      ("eval_every", "20"), ("staggering", "stabilized"), ("cache_impulses", c)] []]) =
    .ok { emptyRigid2DScene with solvers := ⟨none, none, some (7 / 10), some (.sobogus 20), some (1 / 5), some (.stabilized (1 / 1000000) 5000)⟩ } := by
  obtain ⟨_ | _, _ | _⟩ := b <;> decide +kernel

end Scisim
