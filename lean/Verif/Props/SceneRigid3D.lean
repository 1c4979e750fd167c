import Verif.Lemmas.SceneRigid3D
import Verif.Props.SceneRigid2D
import Verif.Props.Mass
import Verif.Props.Frames
/-!
# C72: scene files of the simulation of three dimensional rigid bodies

`DescribesRigid3DScene` (Spec/SceneRigid3D.lean) says what a scene file means, element by element; `exactReading` is the format (Spec/SceneText.lean).
-/

namespace Scisim

open Matrix

/-- **C72 (partial).** A scene file in the format is loaded, and as the scene it describes. Missing, since it is false: files that are not in the format are
not all rejected (`C72_false_…`); which are accepted, and as what, is `C72_accepts`. -/
theorem C72_loads_partial (b : Build) (files : MeshFiles) (doc : XmlNode) (s : Rigid3DScene) (h : DescribesRigid3DScene exactReading true b files doc s) :
    parseRigid3DScene b files doc = .ok s :=
  (parseRigid3DScene_ok b files doc s).mpr (DescribesRigid3DScene.mono exact_le_lenient h)

/-- **C72.** A file describes at most one scene. -/
theorem C72_unique (b : Build) (files : MeshFiles) (doc : XmlNode) (s s' : Rigid3DScene) (h : DescribesRigid3DScene exactReading true b files doc s)
    (h' : DescribesRigid3DScene exactReading true b files doc s') : s = s' := by
  have h1 := C72_loads_partial b files doc s h
  rw [C72_loads_partial b files doc s' h'] at h1
  exact (Outcome.ok.inj h1).symm

/-- **C72 (what is accepted).** The files that are loaded are those that describe a scene when their texts are read as `lenientReading` says and normals, axes, densities and the
last index of a renderer are not checked, and they are loaded as that scene. -/
theorem C72_accepts (b : Build) (files : MeshFiles) (doc : XmlNode) (s : Rigid3DScene) :
    parseRigid3DScene b files doc = .ok s ↔ DescribesRigid3DScene lenientReading false b files doc s :=
  parseRigid3DScene_ok b files doc s

theorem forall₂_mem {α β : Type} {r : α → β → Prop} {l : List α} {m : List β} (h : List.Forall₂ r l m) : ∀ b ∈ m, ∃ a, r a b := by
  induction h with
  | nil => intro b hb; cases hb
  | cons ha _ ih =>
    intro b hb
    rcases List.mem_cons.mp hb with rfl | hb
    · exact ⟨_, ha⟩
    · exact ih b hb

/-- **C72.** Every scene that is loaded, from whatever file: every body has one of the shapes; shapes have a positive size; the region of the simulation is not empty;
the timestep and the end time are positive; there are not both an impact operator and a friction solver; a friction solver comes with its map, with a friction coefficient
that is not negative and a coefficient of restitution between zero and one; cylinders have positive radii, and their renderers have an index that is at most their number. -/
theorem C72_valid (b : Build) (files : MeshFiles) (doc : XmlNode) (s : Rigid3DScene) (h : parseRigid3DScene b files doc = .ok s) :
    (∀ c ∈ s.bodies, c.geo < s.geometry.length) ∧
    (∀ r, .sphere r ∈ s.geometry → 0 < r) ∧ (∀ x y z, .box (.finite x, .finite y, .finite z) ∈ s.geometry → 0 < x ∧ 0 < y ∧ 0 < z) ∧
    (∀ w l D, .staple w l D ∈ s.geometry → 0 < D ∧ D ≤ w ∧ D ≤ l) ∧ (∀ f, .mesh f ∈ s.geometry → files f = .ok ()) ∧
    (∀ c, s.boundary = some c → c.min.1.Less c.max.1 ∧ c.min.2.1.Less c.max.2.1 ∧ c.min.2.2.Less c.max.2.2) ∧
    0 < s.dt.num ∧ (∀ t, s.endTime = some t → 0 < t) ∧
    (s.solvers.impactOperator = none ∨ s.solvers.frictionSolver = none) ∧
    (s.solvers.impactOperator.isSome → s.solvers.CoR.isSome) ∧
    (s.solvers.frictionSolver.isSome → s.solvers.ifMap.isSome ∧ (∃ mu, s.solvers.mu = some mu ∧ 0 ≤ mu) ∧ ∃ e, s.solvers.CoR = some e ∧ 0 ≤ e ∧ e ≤ 1) ∧
    (∀ c ∈ s.cylinders, 0 < c.r) ∧ (∀ r ∈ s.cylinderRenderers, r.1 ≤ s.cylinders.length ∧ 0 ≤ r.2) := by
  obtain ⟨root, -, -, he, -, -, ⟨nd, -, hst, -⟩, ⟨c, hc, hcs⟩, hbd, hcyl, hcr, -, hg, hb⟩ := (parseRigid3DScene_ok b files doc s).mp h
  refine ⟨?_, ?_, ?_, ?_, ?_, ?_, hst.2.2, ?_, ?_, ?_, ?_, ?_, ?_⟩
  · intro c hc
    obtain ⟨nd, -, -, -, -, -, -, ⟨z, -, hz⟩, -⟩ := forall₂_mem hb c hc
    exact hz.1
  · intro r hr
    obtain ⟨nd, -, -, h0⟩ := forall₂_mem hg _ hr
    exact h0
  · intro x y z hr
    obtain ⟨nd, -, -, h0⟩ := forall₂_mem hg _ hr
    exact h0
  · intro w l D hr
    obtain ⟨nd, -, -, -, -, -, -, h0⟩ := forall₂_mem hg _ hr
    exact h0
  · intro f hr
    obtain ⟨nd, -, -, h0⟩ := forall₂_mem hg _ hr
    exact h0
  · intro c hc
    rcases hbd with ⟨-, h0⟩ | ⟨nd, c', -, ⟨-, -, -, hlt⟩, h0⟩
    · rw [h0] at hc
      cases hc
    · rw [h0] at hc
      cases hc
      exact hlt
  · rintro t ht
    rcases he with ⟨-, h0⟩ | ⟨nd, x, -, -, hx, h0⟩
    · rw [h0] at ht
      cases ht
    · rw [h0] at ht
      obtain rfl := Option.some.inj ht
      exact hx
  · rw [hcs]
    cases c
    · exact Or.inl rfl
    · exact Or.inr rfl
    · exact Or.inl rfl
  · rw [hcs]
    cases c <;> simp [ContactChoice.setup]
  · rw [hcs]
    cases hc with
    | ignored => simp [ContactChoice.setup]
    | impact => simp [ContactChoice.setup]
    | staggered _ _ _ _ hf =>
      obtain ⟨_, _, _, _, _, _, _, _, ⟨_, h1, _, h2, h3⟩, _⟩ := hf
      exact fun _ => ⟨rfl, ⟨_, rfl, h1⟩, _, rfl, h2, h3⟩
    | sobogus _ _ _ _ hf =>
      obtain ⟨_, _, _, ⟨_, h1, _, h2, h3⟩, _⟩ := hf
      exact fun _ => ⟨rfl, ⟨_, rfl, h1⟩, _, rfl, h2, h3⟩
    | grr _ _ _ _ _ hf =>
      obtain ⟨_, _, _, _, ⟨_, h1, _, h2, h3⟩, _⟩ := hf
      exact fun _ => ⟨rfl, ⟨_, rfl, h1⟩, _, rfl, h2, h3⟩
  · intro c hc
    obtain ⟨nd, -, -, -, h0, -⟩ := forall₂_mem hcyl c hc
    exact h0
  · intro r hr
    obtain ⟨nd, -, h0, -, -, h1⟩ := forall₂_mem hcr r hr
    exact ⟨h0, h1⟩

/-! ## The state of the bodies -/

theorem rotationMatrix_turns (r : Vec3) : TurnsAbout r (rotationMatrix r) := by
  unfold rotationMatrix TurnsAbout
  by_cases h : norm3 r = 0
  · have h0 : r = 0 := by
      rw [norm3_eq, Real.sqrt_eq_zero', dot3_exp] at h
      have h0 : r 0 = 0 := by nlinarith [sq_nonneg (r 0), sq_nonneg (r 1), sq_nonneg (r 2)]
      have h1 : r 1 = 0 := by nlinarith [sq_nonneg (r 0), sq_nonneg (r 1), sq_nonneg (r 2)]
      have h2 : r 2 = 0 := by nlinarith [sq_nonneg (r 0), sq_nonneg (r 1), sq_nonneg (r 2)]
      funext k
      fin_cases k <;> assumption
    rw [if_neg (not_not.mpr h)]
    subst h0
    refine ⟨⟨by simp, by simp, by simp⟩, fun _ => rfl, by simp, fun p _ => ?_⟩
    rw [h]
    simp
  · rw [if_pos h]
    have hpos : 0 < norm3 r := lt_of_le_of_ne (by rw [norm3_eq]; exact Real.sqrt_nonneg _) (Ne.symm h)
    have hd : 0 < r ⬝ᵥ r := by
      rw [norm3_eq] at hpos
      exact Real.sqrt_pos.mp hpos
    obtain ⟨hu, -⟩ := normalized3_dot hd
    have hr : r = norm3 r • normalized3 r := by
      unfold normalized3
      rw [if_pos hpos]
      funext k
      show r k = norm3 r * (r k / norm3 r)
      field_simp
    generalize normalized3 r = u at hu hr ⊢
    generalize norm3 r = n at hr h ⊢
    subst hr
    refine ⟨angleAxis_isRotation n u (by rw [dot3_exp] at hu; exact hu), ?_, ?_, ?_⟩
    · intro h0
      rw [h0] at hd
      simp at hd
    · rw [Matrix.mulVec_smul, angleAxis_fixes n u hu]
    · intro p hp
      have hp' : p 0 * u 0 + p 1 * u 1 + p 2 * u 2 = 0 := by
        rw [dotProduct_smul, dot3_exp, smul_eq_mul] at hp
        exact (mul_eq_zero.mp hp).resolve_left h
      funext k
      fin_cases k <;> simp [angleAxisMatrix, Matrix.mulVec, dotProduct, Fin.sum_univ_three, crossProduct]
      · linear_combination (n * (1 - Real.cos n) * u 0) * hp'
      · linear_combination (n * (1 - Real.cos n) * u 1) * hp'
      · linear_combination (n * (1 - Real.cos n) * u 2) * hp'

theorem bodyState3D_ok (meshes : String → MeshMoments) {geometry : List Geometry3DElement} {c : Body3DElement} (hc : c.geo < geometry.length)
    (hs : ∀ r, .sphere r ∈ geometry → 0 < r) (hbox : ∀ x y z, .box (.finite x, .finite y, .finite z) ∈ geometry → 0 < x ∧ 0 < y ∧ 0 < z) :
    ∃ x, bodyState3D meshes geometry c = .ok x ∧ ∃ g, geometry[c.geo]? = some g ∧ (FiniteBody c g → ∃ y, x = some y ∧ IsStateOf meshes c g y) := by
  have hg : geometry[c.geo]? = some geometry[c.geo] := List.getElem?_eq_getElem hc
  have hmem := List.getElem_mem hc
  generalize geometry[c.geo] = g at hg hmem
  unfold bodyState3D
  rw [hg]
  simp only
  by_cases hf : FiniteBody c g
  · have hR : ∃ Q, c.R0 = some Q ∧ ∀ shape, HasOrientation c.rotation shape (Q * shape) := by
      unfold Body3DElement.R0 HasOrientation
      cases hr : c.rotation with
      | none => exact ⟨1, rfl, fun shape => by simp⟩
      | some r =>
        obtain ⟨x, y, z, rfl⟩ := hf.2 r hr
        exact ⟨_, rfl, fun shape => ⟨x, y, z, rfl, _, rotationMatrix_turns _, rfl⟩⟩
    obtain ⟨Q, hQ, hQ'⟩ := hR
    have hM : ∃ mp shape, g.massAndInertia meshes c.rho = some (mp, shape) ∧ (0 < c.rho → ShapeMoments meshes c.rho g mp.M mp.I mp.CM shape) := by
      cases g with
      | sphere r =>
        refine ⟨_, _, rfl, fun h => ⟨rfl, rfl, (C47_sphere r c.rho ?_ ?_).1⟩⟩
        · exact_mod_cast hs r hmem
        · exact_mod_cast h
      | box r =>
        obtain ⟨x, y, z, rfl⟩ := hf.1 r rfl
        refine ⟨_, _, rfl, fun h => ⟨rfl, rfl, x, y, z, rfl, (C47_box3 _ c.rho ?_ ?_).1⟩⟩
        · obtain ⟨h0, h1, h2⟩ := hbox x y z hmem
          intro i
          fin_cases i
          · exact Rat.cast_pos.mpr h0
          · exact Rat.cast_pos.mpr h1
          · exact Rat.cast_pos.mpr h2
        · exact_mod_cast h
      | staple w l D => exact ⟨_, _, rfl, fun _ => ⟨rfl, rfl⟩⟩
      | mesh f => exact ⟨_, _, rfl, fun _ => ⟨rfl, rfl, rfl, rfl⟩⟩
    obtain ⟨mp, shape, hmp, hsh⟩ := hM
    rw [hmp, hQ]
    exact ⟨_, rfl, g, rfl, fun _ => ⟨_, rfl, rfl, rfl, mp.CM, shape, rfl, hQ' shape, hsh⟩⟩
  · split
    · exact ⟨_, rfl, g, rfl, fun h => absurd h hf⟩
    · exact ⟨_, rfl, g, rfl, fun h => absurd h hf⟩

/-- **C72.** The initial state of a scene that is loaded: its computation does not leave the list of shapes, and a body whose shape and rotation vector are finite has the
velocities of the file, is turned from the orientation of its shape by the rotation vector, and, if its density is positive, has the mass and the moments of inertia of its shape.
The attribute `x` is the position of the origin of the coordinates of the shape: to it the centre of mass is added, not turned. -/
theorem C72_bodies (b : Build) (files : MeshFiles) (meshes : String → MeshMoments) (doc : XmlNode) (s : Rigid3DScene) (h : parseRigid3DScene b files doc = .ok s) :
    ∃ states, bodyStates3D meshes s.geometry s.bodies = .ok states ∧
      List.Forall₂ (fun c x => ∃ g, s.geometry[c.geo]? = some g ∧ (FiniteBody c g → ∃ y, x = some y ∧ IsStateOf meshes c g y)) s.bodies states := by
  obtain ⟨hc, hs, hbox, -⟩ := C72_valid b files doc s h
  unfold bodyStates3D
  generalize s.bodies = l at hc
  induction l with
  | nil => exact ⟨[], rfl, .nil⟩
  | cons c l ih =>
    obtain ⟨st, hst, hf⟩ := ih fun c' hc' => hc c' (List.mem_cons_of_mem _ hc')
    obtain ⟨x, hx, hx'⟩ := bodyState3D_ok meshes (hc c (by simp)) hs hbox
    refine ⟨x :: st, ?_, .cons hx' hf⟩
    rw [mapNodes_ok] at hst ⊢
    exact .cons hx hst

/-- **C72.** Renderers of planes after loading: those of the planes that no portal names, in the order of their planes; each has kept its half widths and belongs to the same plane
as in the file, although the plane may have another number now. A renderer with the number one past the last plane, which is accepted, belongs to none. -/
theorem C72_renderers (b : Build) (files : MeshFiles) (doc : XmlNode) (s : Rigid3DScene) (h : parseRigid3DScene b files doc = .ok s) :
    ∃ root planes rs named, doc.first "rigidbody3d_scene" = some root ∧
      List.Forall₂ (IsPlane3D lenientReading false) (root.all "static_plane") planes ∧
      List.Forall₂ (IsPlaneRenderer lenientReading false planes.length) (root.all "static_plane_renderer") rs ∧
      (∀ i, i ∈ named ↔ ∃ nd ∈ root.all "planar_portal", ∃ p, NamesPlanes lenientReading nd p ∧ (i = p.1 ∨ i = p.2)) ∧
      s.planes = untouched planes named ∧
      List.Forall₂ (fun old new => new.r = old.r ∧ s.planes[new.index]? = planes[old.index]?) ((byPlane rs).filter fun r => r.index ∉ named) s.planeRenderers := by
  obtain ⟨root, hroot, -, -, -, -, -, -, -, -, -, ⟨planes, rs, hpl, hrs, pairs, mults, hp, -, hn, hl, -, hun, hre, -⟩, -, -⟩ := (parseRigid3DScene_ok b files doc s).mp h
  simp only at hun hre
  refine ⟨root, planes, rs, positions pairs, hroot, hpl, hrs, ?_, hun, ?_⟩
  · intro i
    have huniq : ∀ nd p q, NamesPlanes lenientReading nd p → NamesPlanes lenientReading nd q → p = q := by
      intro nd p q h1 h2
      have hname : ∀ (nd : XmlNode) (p : ℕ × ℕ), nd.portalNode.Names p ↔ NamesPlanes lenientReading nd p := by
        intro nd p
        simp only [PortalNode.Names, XmlNode.portalNode, unsignedAttr_value, NamesPlanes]
      obtain ⟨a1, b1⟩ := (hname nd p).mpr h1
      obtain ⟨a2, b2⟩ := (hname nd q).mpr h2
      rw [a1] at a2
      rw [b1] at b2
      injection a2 with a2
      injection b2 with b2
      exact Prod.ext a2 b2
    clear hn hl hun hre
    generalize root.all "planar_portal" = nodes at hp
    induction hp with
    | nil => simp [positions]
    | @cons nd p nodes pairs hnp _ ih =>
      rw [show positions (p :: pairs) = [p.1, p.2] ++ positions pairs from rfl, List.mem_append]
      simp only [ih, List.mem_cons, List.not_mem_nil, or_false, exists_eq_or_imp]
      constructor
      · rintro (h | h)
        · exact Or.inl ⟨p, hnp, h⟩
        · exact Or.inr h
      · rintro (⟨q, hq, h⟩ | h)
        · rw [huniq nd q p hq hnp] at h
          exact Or.inl h
        · exact Or.inr h
  · rw [hre, List.forall₂_map_right_iff]
    apply List.forall₂_same.mpr
    intro x hx
    refine ⟨rfl, ?_⟩
    obtain ⟨hd, hm⟩ := descending_spec _ hn
    have hperm : (((positions pairs).insertionSort (· ≤ ·)).reverse).Perm (positions pairs) := (List.reverse_perm _).trans (List.perm_insertionSort _ _)
    generalize ((positions pairs).insertionSort (· ≤ ·)).reverse = ds at hd hm hperm
    have hx' : x.index ∉ positions pairs := by simpa using (List.mem_filter.mp hx).2
    have := getElem?_renumberOne x.index ds x.index planes hd (fun i hi => hl i ((hm i).mp hi)) fun d hd' => ⟨Iff.rfl, fun hc => hx' ((hm _).mp (hc ▸ hd'))⟩
    rw [untouched_congr planes hm, renumberOne_eq, hperm.countP_eq, ← hun] at this
    exact this

/-! ## Loading returns -/

theorem loadNodes_returns {N D : Type} (n : Nat) (pn : N → PortalNode) (rd : N → Outcome D) : ∀ (nodes : List N) (acc : List ((Nat × Nat) × D)),
    (∀ nd ∈ nodes, (rd nd).Returns) → (loadNodes n pn rd nodes acc).Returns
  | [], acc, _ => .ok acc
  | nd :: rest, acc, h => by
    rw [loadNodes]
    rcases readPair_safe n (acc.map (·.1)) (pn nd) with h1 | ⟨p, h1⟩
    · rw [h1]
      exact .fail
    · rw [h1]
      rcases h nd (by simp) with h2 | ⟨d, h2⟩
      · simp only [Outcome.bind, h2]
        exact .fail
      · simp only [Outcome.bind, h2]
        exact loadNodes_returns n pn rd rest _ fun nd' hnd' => h nd' (List.mem_cons_of_mem _ hnd')

theorem loadPortals3D_returns (planes : List Plane3DElement) (rs : List (PlaneRenderer HalfWidths)) (nodes : List XmlNode)
    (h : ∀ nd ∈ nodes, nd.attr "multiplier" ≠ some "") : (loadPortals3D planes rs nodes).Returns := by
  unfold loadPortals3D
  split_ifs
  · exact .ok _
  · exact .fail
  · rw [loadPortalElements_eq]
    rcases loadNodes_returns planes.length (·.portalNode) loadMultiplier nodes [] fun nd hnd => loadMultiplier_returns nd (h nd hnd) with h1 | ⟨all, h1⟩
    · rw [h1]
      exact .fail
    · obtain ⟨new, -, hf, hn, hl⟩ := (loadNodes_ok _ _ _ nodes [] all (by simp [positions]) (by simp [positions])).mp h1
      obtain ⟨ps, hp1, -⟩ := buildPortals_ok planes all hl
      obtain ⟨hd, hm⟩ := descending_spec _ hn
      rw [h1]
      simp only [Outcome.bind]
      rw [hp1]
      simp only
      rw [usedIndices_eq, eraseEach3_eq _ planes rs hd (fun i hi => hl i ((hm i).mp hi))]
      exact .ok _

theorem loadOptional_returns {α : Type} {load : XmlNode → Outcome α} {root : XmlNode} {name : String} (h : ∀ nd, root.first name = some nd → (load nd).Returns) :
    (loadOptional load root name).Returns := by
  unfold loadOptional
  split
  · exact .ok _
  · rename_i nd hnd
    exact (h nd hnd).bind fun _ _ => .ok _

/-- **C72 (partial).** Loading succeeds or reports an error, for every file in which no list is empty, no body has the smallest `int` for the index of its shape, the options of the solver
are known, reading the mesh files returns, and the reader of fractions returns on the text of the timestep. Without these restrictions it is false: `C72_false_empty`,
`C72_false_index`, `C72_false_exit`. -/
theorem C72_returns_partial (b : Build) (files : MeshFiles) (doc : XmlNode) (hfiles : ∀ f, (files f).Returns)
    (h : ∀ root, doc.first "rigidbody3d_scene" = some root → Rigid3DListsPresent root ∧ SolverOptionsKnown .rigidBody3D root ∧
      (∀ nd ∈ root.all "rigid_body_with_density", ¬ nd.Int lenientReading "geo_idx" (-2 ^ 31)) ∧
      ∀ nd t, root.first "integrator" = some nd → nd.attr "dt" = some t → (extractRational t.toList).Returns) : (parseRigid3DScene b files doc).Returns := by
  refine (requireChild_returns _ _).bind fun root hroot => ?_
  obtain ⟨⟨hg, hper, hort, hbd, hpl, hcyl, hpr, hpo, hgeo, hb⟩, hs, hidx, ht⟩ := h root ((requireChild_ok _ _ _).mp hroot)
  have hscript : (loadScripting root).Returns := by
    unfold loadScripting
    split
    · exact .ok _
    · exact require_returns _ _
  have hend : (loadEndTime root).Returns := by
    unfold loadEndTime
    split
    · exact .ok _
    · exact (scalar_returns _ _).bind fun _ _ => (failIf_returns _).bind fun _ _ => .ok _
  have hview : (loadView root).Returns := by
    refine (loadOptional_returns fun nd hnd => ?_).bind fun _ _ => (loadOptional_returns fun nd hnd => ?_).bind fun _ _ => .ok _
    · obtain ⟨h1, h2⟩ := hper nd hnd
      exact (scalar_returns _ _).bind fun _ _ => (scalar_returns _ _).bind fun _ _ => (scalar_returns _ _).bind fun _ _ => (failIf_returns _).bind fun _ _ =>
        (loadTriple_returns _ _ h1).bind fun _ _ => (loadTriple_returns _ _ h2).bind fun _ _ => (unsigned_returns _ _).bind fun _ _ => (flag_returns _ _).bind fun _ _ =>
        (flag_returns _ _).bind fun _ _ => .ok _
    · refine Outcome.Returns.bind ?_ fun _ _ => (loadTriple_returns _ _ (hort nd hnd)).bind fun _ _ => (scalar_returns _ _).bind fun _ _ => (failIf_returns _).bind fun _ _ =>
        (unsigned_returns _ _).bind fun _ _ => (flag_returns _ _).bind fun _ _ => (flag_returns _ _).bind fun _ _ => .ok _
      refine (require_returns _ _).bind fun _ _ => ?_
      split_ifs
      · exact .ok _
      · exact .ok _
      · exact .ok _
      · exact .fail
  have hint : (loadRigid3DIntegrator root).Returns := by
    refine (requireChild_returns _ _).bind fun nd hnd => Outcome.Returns.bind ?_ fun _ _ => (require_returns _ _).bind fun _ _ => ?_
    · exact (require_returns _ _).bind fun t h => (ht nd t ((requireChild_ok _ _ _).mp hnd) ((require_ok _ _ _).mp h)).bind fun _ _ => (failIf_returns _).bind fun _ _ => .ok _
    · split_ifs
      · exact .ok _
      · exact .ok _
      · exact .ok _
      · exact .fail
  refine hscript.bind fun _ _ => hend.bind fun _ _ => Outcome.Returns.bind (mapNodes_returns _ _ fun nd hnd => loadTriple_returns _ _ (hg nd hnd)) fun _ _ =>
    hview.bind fun _ _ => hint.bind fun _ _ => (loadSolvers_returns b .rigidBody3D root hs).bind fun _ _ =>
    (loadOptional_returns fun nd hnd => ?_).bind fun _ _ =>
    Outcome.Returns.bind (mapNodes_returns _ _ fun nd hnd => ?_) fun _ _ => Outcome.Returns.bind (mapNodes_returns _ _ fun nd hnd => ?_) fun _ _ =>
    Outcome.Returns.bind (mapNodes_returns _ _ fun nd hnd => ?_) fun _ _ => Outcome.Returns.bind (mapNodes_returns _ _ fun nd hnd => ?_) fun _ _ =>
    (loadPortals3D_returns _ _ _ hpo).bind fun _ _ =>
    Outcome.Returns.bind (mapNodes_returns _ _ fun nd hnd => ?_) fun geo _ => Outcome.Returns.bind (mapNodes_returns _ _ fun nd hnd => ?_) fun _ _ => .ok _
  · refine (require_returns _ _).bind fun _ _ => Outcome.Returns.bind ?_ fun _ _ => (loadTriple_returns _ _ (hbd nd hnd).1).bind fun _ _ =>
      (loadTriple_returns _ _ (hbd nd hnd).2).bind fun _ _ => (failIf_returns _).bind fun _ _ => .ok _
    split_ifs
    · exact .ok _
    · exact .ok _
    · exact .fail
  · exact (loadTriple_returns _ _ (hpl nd hnd).1).bind fun _ _ => (loadTriple_returns _ _ (hpl nd hnd).2).bind fun _ _ => .ok _
  · exact (loadTriple_returns _ _ (hcyl nd hnd).1).bind fun _ _ => (loadTriple_returns _ _ (hcyl nd hnd).2).bind fun _ _ => (scalar_returns _ _).bind fun _ _ =>
      (failIf_returns _).bind fun _ _ => .ok _
  · exact (size_returns _ _).bind fun _ _ => (failIf_returns _).bind fun _ _ => (loadPoint2_returns _ _ (hpr nd hnd)).bind fun _ _ => (failIf_returns _).bind fun _ _ => .ok _
  · exact (size_returns _ _).bind fun _ _ => (failIf_returns _).bind fun _ _ => (scalar_returns _ _).bind fun _ _ => (failIf_returns _).bind fun _ _ => .ok _
  · refine (require_returns _ _).bind fun _ _ => ?_
    split_ifs
    · exact (scalar_returns _ _).bind fun _ _ => (failIf_returns _).bind fun _ _ => .ok _
    · exact (loadTriple_returns _ _ (hgeo nd hnd)).bind fun _ _ => (failIf_returns _).bind fun _ _ => .ok _
    · exact (scalar_returns _ _).bind fun _ _ => (failIf_returns _).bind fun _ _ => (scalar_returns _ _).bind fun _ _ => (failIf_returns _).bind fun _ _ =>
        (scalar_returns _ _).bind fun _ _ => (failIf_returns _).bind fun _ _ => (failIf_returns _).bind fun _ _ => .ok _
    · exact (require_returns _ _).bind fun _ _ => (hfiles _).bind fun _ _ => .ok _
    · exact .fail
  · refine (loadVector_returns _ _).bind fun _ _ => (loadVector_returns _ _).bind fun _ _ => (loadVector_returns _ _).bind fun _ _ => (scalar_returns _ _).bind fun _ _ =>
      (flag_returns _ _).bind fun _ _ => Outcome.Returns.bind ?_ fun _ _ => Outcome.Returns.bind ?_ fun _ _ => .ok _
    · refine (int_returns _ _).bind fun z hz => ?_
      split_ifs with h1 h2
      · subst h2
        exact absurd ((int_ok _ _ _).mp hz) (hidx nd hnd)
      · exact .fail
      · exact .ok _
      · exact .fail
      · exact .ok _
    · unfold loadRotation
      split
      · exact .ok _
      · exact (loadTriple_returns _ _ (hb nd hnd)).bind fun _ _ => .ok _

/-! ## An example -/

/-- assets/rigidbody3d/tests_serialization/friction_collide_in_portal.xml with the cylinder of sphere_in_off_center_cylinder.xml, two more planes, of which one is rendered, a box that is
turned and fixed, and a boundary -/
def exampleRigid3DRoot : XmlNode :=
  .mk "rigidbody3d_scene" [] [
    .mk "camera_perspective" [("theta", "1.57"), ("phi", "0"), ("rho", "18.6009"), ("lookat", "0.5 -0.25 0"), ("up", "0 1 0"), ("fps", "50"), ("render_at_fps", "0"), ("locked", "0")] [],
    .mk "integrator" [("type", "split_ham"), ("dt", "0.01")] [],
    .mk "sobogus_friction_solver" [("mu", "2.0"), ("CoR", "0.8"), ("eval_every", "25"), ("max_iters", "5000"), ("tol", "1.0e-12"), ("staggering", "geometric")] [],
    .mk "near_earth_gravity" [("f", "0.0 -9.81 0.0")] [],
    .mk "simulation_boundary" [("violation_behavior", "exit"), ("min", "-20 -20 -inf"), ("max", "20 20 inf")] [],
    .mk "static_plane" [("x", "-8 0 0"), ("n", "1 0 0")] [],
    .mk "static_plane" [("x", "8 0 0"), ("n", "-1 0 0")] [],
    .mk "static_plane" [("x", "0 -9 0"), ("n", "0 1 0")] [],
    .mk "static_cylinder" [("x", "2.0 2.0 0.0"), ("axis", "1.0 0.0 1.0"), ("R", "2.0")] [],
    .mk "static_plane_renderer" [("plane", "2"), ("r", "3.0 6.0")] [],
    .mk "static_plane_renderer" [("plane", "0"), ("r", "4.0 8.0")] [],
    .mk "static_plane_renderer" [("plane", "1"), ("r", "4.0 8.0")] [],
    .mk "static_cylinder_renderer" [("cylinder_idx", "0"), ("L", "5.0")] [],
    .mk "planar_portal" [("planeA", "0"), ("planeB", "1"), ("multiplier", "1 1 -1")] [],
    .mk "geometry" [("type", "sphere"), ("r", "0.25")] [],
    .mk "geometry" [("type", "box"), ("r", "0.5 0.25 1")] [],
    .mk "rigid_body_with_density" [("x", "1.25 1 0"), ("v", "-1 -1 0"), ("omega", "0 0 0"), ("rho", "1.74040"), ("fixed", "0"), ("geo_idx", "0")] [],
    .mk "rigid_body_with_density" [("x", "-1.75 -1 0"), ("v", "0 0 0"), ("omega", "0 0 0"), ("rho", "2"), ("fixed", "1"), ("geo_idx", "-1"), ("R", "0 0 0.5")] []]

def exampleRigid3DScene : Rigid3DScene where
  script := ""
  endTime := none
  forces := [(.finite 0, .finite (-981 / 100), .finite 0)]
  view := some ⟨.perspective (157 / 100) 0 (186009 / 10000) (.finite (1 / 2), .finite (-1 / 4), .finite 0) (.finite 0, .finite 1, .finite 0), 50, false, false⟩
  dtText := "0.01"
  dt := ⟨1, 100⟩
  integrator := .splitHam
  solvers := ⟨none, none, some (4 / 5), some (.sobogus 25), some 2, some (.geometric (1 / 1000000000000) 5000 .none)⟩
  boundary := some ⟨true, (.finite (-20), .finite (-20), .inf true), (.finite 20, .finite 20, .inf false)⟩
  planes := [⟨(.finite 0, .finite (-9), .finite 0), (.finite 0, .finite 1, .finite 0)⟩]
  cylinders := [⟨(.finite 2, .finite 2, .finite 0), (.finite 1, .finite 0, .finite 1), 2⟩]
  planeRenderers := [⟨0, (.finite 3, .finite 6)⟩]
  cylinderRenderers := [(0, 5)]
  portals := [⟨⟨(.finite (-8), .finite 0, .finite 0), (.finite 1, .finite 0, .finite 0)⟩, ⟨(.finite 8, .finite 0, .finite 0), (.finite (-1), .finite 0, .finite 0)⟩, (1, 1, -1)⟩]
  portalRenderers := [⟨0, (.finite 4, .finite 8), (.finite 4, .finite 8)⟩]
  geometry := [.sphere (1 / 4), .box (.finite (1 / 2), .finite (1 / 4), .finite 1)]
  bodies := [⟨(5 / 4, 1, 0), (-1, -1, 0), (0, 0, 0), 4351 / 2500, false, 0, none⟩,
    ⟨(-7 / 4, -1, 0), (0, 0, 0), (0, 0, 0), 2, true, 1, some (.finite 0, .finite 0, .finite (1 / 2))⟩]

/-- An entry of a list, as a decision: it has no white space, and is a number or an infinite one -/
def isEntry (s : List Char) (x : ListScalar) : Bool :=
  (s.all fun c => !isSpace c) && match x with
  | .finite q => decide (extractScalar s = .value q [])
  | .inf negative => decide (s = if negative then "-inf".toList else "inf".toList)

theorem isEntry_iff {s : List Char} {x : ListScalar} (h : isEntry s x = true) : IsEntry s x ∧ ' ' ∉ s := by
  unfold isEntry at h
  rw [Bool.and_eq_true] at h
  obtain ⟨h1, h2⟩ := h
  refine ⟨?_, fun hm => absurd (List.all_eq_true.mp h1 _ hm) (by decide)⟩
  cases x with
  | finite q => exact isEntry_of (of_decide_eq_true h2) h1
  | inf negative =>
    have h3 := of_decide_eq_true h2
    cases negative <;> exact h3

theorem triple_of {nd : XmlNode} {a t : String} (l m r : List Char) {x y z : ListScalar} (ht : nd.attr a = some t)
    (h : t.toList = l ++ ' ' :: m ++ ' ' :: r ∧ isEntry l x = true ∧ isEntry m y = true ∧ isEntry r z = true) : nd.Triple exactReading a (x, y, z) := by
  obtain ⟨ht', hl, hm, hr⟩ := h
  refine ⟨t, ht, ?_, [l, m, r], ?_, ?_, .cons (isEntry_iff hl).1 (.cons (isEntry_iff hm).1 (.cons (isEntry_iff hr).1 .nil))⟩
  · rw [ht']
    simp
  · rw [ht']
    simp [List.intercalate]
  · intro s hs
    simp only [List.mem_cons, List.not_mem_nil, or_false] at hs
    rcases hs with rfl | rfl | rfl
    · exact (isEntry_iff hl).2
    · exact (isEntry_iff hm).2
    · exact (isEntry_iff hr).2

theorem vector_of {nd : XmlNode} {a t : String} (r1 r2 : List Char) {x y z : ℚ} (ht : nd.attr a = some t)
    (h : extractScalar t.toList = .value x r1 ∧ (∀ c ∈ r1.head?, isSpace c = true) ∧ extractScalar r1 = .value y r2 ∧ (∀ c ∈ r2.head?, isSpace c = true) ∧ extractScalar r2 = .value z []) :
    nd.Vector exactReading a (x, y, z) := by
  obtain ⟨h1, s1, h2, s2, h3⟩ := h
  exact ⟨t, ht, .cons ((extractScalar_value _ _ _).mp h1) (fun c hc => s1 c hc) (.cons ((extractScalar_value _ _ _).mp h2) (fun c hc => s2 c hc)
    (.cons ((extractScalar_value _ _ _).mp h3) (fun c hc => by cases hc) (.nil fun c hc => by cases hc)))⟩

theorem index_of {nd : XmlNode} {a t : String} (ds : List Digit) {n : ℕ} (ht : nd.attr a = some t)
    (h : t.toList = digitText ds ∧ ds ≠ [] ∧ n = digitsNat ds ∧ n < 2 ^ 64) : nd.Index exactReading a n :=
  ⟨t, ht, .none, ds, [], beginsWithInteger_digits _ _ _ h.1 h.2.1, fun _ hc => (by cases hc), by decide, h.2.2⟩

theorem exampleRigid3D_sobogus : DescribesContacts exactReading b .rigidBody3D exampleRigid3DRoot
    (.friction ⟨2, 4 / 5, .sobogus 25, .geometric (1 / 1000000000000) 5000 .none⟩) := by
  refine .sobogus rfl rfl rfl (fun _ => rfl) ⟨1 / 1000000000000, 5000, 25, ⟨number_of rfl ?_, ?_, number_of rfl ?_, ?_, ?_⟩,
    ⟨number_of rfl ?_, ?_, int_of .none [5, 0, 0, 0] rfl ?_, ?_⟩, int_of .none [2, 5] rfl ?_, ?_, ?_, rfl, .geometric3 rfl⟩
  all_goals decide +kernel

/-- The planes of the file -/
def exampleRigid3DPlanes : List Plane3DElement :=
  [⟨(.finite (-8), .finite 0, .finite 0), (.finite 1, .finite 0, .finite 0)⟩, ⟨(.finite 8, .finite 0, .finite 0), (.finite (-1), .finite 0, .finite 0)⟩,
    ⟨(.finite 0, .finite (-9), .finite 0), (.finite 0, .finite 1, .finite 0)⟩]

/-- Their renderers -/
def exampleRigid3DRenderers : List (PlaneRenderer HalfWidths) := [⟨2, (.finite 3, .finite 6)⟩, ⟨0, (.finite 4, .finite 8)⟩, ⟨1, (.finite 4, .finite 8)⟩]

theorem exampleRigid3D_multiplier : IsMultiplier exactReading (.mk "planar_portal" [("planeA", "0"), ("planeB", "1"), ("multiplier", "1 1 -1")] []) (1, 1, -1) := by
  have hint : ∀ (sg : Sign) (ds : List Digit) (z : ℤ), ds ≠ [] → z = sg.factor * digitsNat ds → -2 ^ 31 ≤ z → z < 2 ^ 31 → exactReading.int (sg.chars ++ digitText ds) z :=
    fun sg ds z h1 h2 h3 h4 => ⟨sg, ds, [], beginsWithInteger_digits _ _ _ rfl h1, fun _ hc => (by cases hc), h2, h3, h4⟩
  refine ⟨⟨_, ["1".toList, "1".toList, "-1".toList], rfl, ?_, ?_, .cons (hint .none [1] _ ?_ ?_ ?_ ?_) (.cons (hint .none [1] _ ?_ ?_ ?_ ?_) (.cons (hint .minus [1] _ ?_ ?_ ?_ ?_) .nil))⟩,
    Or.inl rfl, Or.inl rfl, Or.inr rfl⟩
  all_goals decide +kernel

theorem exampleRigid3D_portals : DescribesPortals3 exactReading exampleRigid3DRoot exampleRigid3DPlanes (byPlane exampleRigid3DRenderers)
    ⟨exampleRigid3DScene.planes, exampleRigid3DScene.portals, exampleRigid3DScene.planeRenderers, exampleRigid3DScene.portalRenderers⟩ := by
  refine ⟨[(0, 1)], [(1, 1, -1)], .cons ⟨unsigned_of [0] rfl ?_, unsigned_of [1] rfl ?_⟩ .nil, .cons exampleRigid3D_multiplier .nil, ?_, ?_, .cons ⟨rfl, rfl, rfl⟩ .nil, ?_, ?_, ?_⟩
  all_goals decide +kernel

theorem exampleRigid3D_planes : List.Forall₂ (IsPlane3D exactReading true) (exampleRigid3DRoot.all "static_plane") exampleRigid3DPlanes := by
  refine .cons ⟨triple_of "-8".toList "0".toList "0".toList rfl ?_, triple_of "1".toList "0".toList "0".toList rfl ?_, ?_⟩
    (.cons ⟨triple_of "8".toList "0".toList "0".toList rfl ?_, triple_of "-1".toList "0".toList "0".toList rfl ?_, ?_⟩
    (.cons ⟨triple_of "0".toList "-9".toList "0".toList rfl ?_, triple_of "0".toList "1".toList "0".toList rfl ?_, ?_⟩ .nil))
  all_goals first | decide +kernel | (unfold ListTriple.IsZero; decide +kernel)

theorem exampleRigid3D_renderers : List.Forall₂ (IsPlaneRenderer exactReading true exampleRigid3DPlanes.length) (exampleRigid3DRoot.all "static_plane_renderer") exampleRigid3DRenderers := by
  refine .cons ⟨index_of [2] rfl ?_, ?_, ?_, pair_of "3.0".toList "6.0".toList rfl ?_, ?_, ?_⟩
    (.cons ⟨index_of [0] rfl ?_, ?_, ?_, pair_of "4.0".toList "8.0".toList rfl ?_, ?_, ?_⟩
    (.cons ⟨index_of [1] rfl ?_, ?_, ?_, pair_of "4.0".toList "8.0".toList rfl ?_, ?_, ?_⟩ .nil))
  all_goals first | decide +kernel | (unfold ListScalar.NotNegative; decide +kernel)

theorem exampleRigid3D_bodies : List.Forall₂ (IsBody3D exactReading true 2) (exampleRigid3DRoot.all "rigid_body_with_density") exampleRigid3DScene.bodies := by
  refine .cons ⟨vector_of " 1 0".toList " 0".toList rfl ?_, vector_of " -1 0".toList " 0".toList rfl ?_, vector_of " 0 0".toList " 0".toList rfl ?_, number_of rfl ?_, ?_, flag_of [0] rfl ?_,
      ⟨0, int_of .none [0] rfl ?_, ?_⟩, Or.inl ⟨rfl, rfl⟩⟩
    (.cons ⟨vector_of " -1 0".toList " 0".toList rfl ?_, vector_of " 0 0".toList " 0".toList rfl ?_, vector_of " 0 0".toList " 0".toList rfl ?_, number_of rfl ?_, ?_, flag_of [1] rfl ?_,
      ⟨-1, int_of .minus [1] rfl ?_, ?_⟩, Or.inr ⟨_, triple_of "0".toList "0".toList "0.5".toList rfl ?_, rfl⟩⟩ .nil)
  all_goals first | decide +kernel | (unfold IsShapeIndex; decide +kernel)

/-- The hypothesis of `C72_loads_partial` holds of the example. -/
theorem exampleRigid3D_describes (b : Build) (files : MeshFiles) : DescribesRigid3DScene exactReading true b files (.mk "" [] [exampleRigid3DRoot]) exampleRigid3DScene := by
  refine ⟨exampleRigid3DRoot, rfl, Or.inl ⟨rfl, rfl⟩, Or.inl ⟨rfl, rfl⟩, .cons (triple_of "0.0".toList "-9.81".toList "0.0".toList rfl ?_) .nil,
    ⟨exampleRigid3DScene.view, none, Or.inr ⟨_, _, rfl, ⟨_, _, _, _, _, rfl, number_of rfl ?_, number_of rfl ?_, number_of rfl ?_, ?_, triple_of "0.5".toList "-0.25".toList "0".toList rfl ?_,
      triple_of "0".toList "1".toList "0".toList rfl ?_, unsigned_of [5, 0] rfl ?_, flag_of [0] rfl ?_, flag_of [0] rfl ?_⟩, rfl⟩, Or.inl ⟨rfl, rfl⟩, rfl⟩,
    ⟨_, rfl, ⟨rfl, .dec .none [0] [0, 1], ?_, ?_, ?_, ?_, ?_, ?_⟩, rfl⟩,
    ⟨_, exampleRigid3D_sobogus, rfl⟩,
    Or.inr ⟨_, _, rfl, ⟨rfl, triple_of "-20".toList "-20".toList "-inf".toList rfl ?_, triple_of "20".toList "20".toList "inf".toList rfl ?_, ?_, ?_, ?_⟩, rfl⟩,
    .cons ⟨triple_of "2.0".toList "2.0".toList "0.0".toList rfl ?_, triple_of "1.0".toList "0.0".toList "1.0".toList rfl ?_, number_of rfl ?_, ?_, ?_⟩ .nil,
    .cons ⟨index_of [0] rfl ?_, ?_, ?_, number_of rfl ?_, ?_⟩ .nil,
    ⟨_, _, exampleRigid3D_planes, exampleRigid3D_renderers, exampleRigid3D_portals⟩,
    .cons ⟨rfl, number_of rfl ?_, ?_⟩ (.cons ⟨rfl, triple_of "0.5".toList "0.25".toList "1".toList rfl ?_, ?_, ?_, ?_⟩ .nil),
    exampleRigid3D_bodies⟩
  all_goals first
    | decide +kernel
    | (unfold Literal.Wellformed; decide +kernel)
    | (unfold Literal.Small; decide +kernel)
    | (unfold Spells; decide +kernel)
    | (unfold Represents; decide +kernel)
    | (unfold ListScalar.Positive; decide +kernel)
    | (unfold ListScalar.Less; decide +kernel)
    | (unfold ListTriple.IsZero; decide +kernel)
    | exact fun h => h

/-- It is loaded. -/
theorem exampleRigid3D_loads (b : Build) (files : MeshFiles) : parseRigid3DScene b files (.mk "" [] [exampleRigid3DRoot]) = .ok exampleRigid3DScene :=
  C72_loads_partial b files _ _ (exampleRigid3D_describes b files)

/-- Both bodies are finite, so that `C72_bodies` says what their states are. -/
example (meshes : String → MeshMoments) : ∃ y z, bodyStates3D meshes exampleRigid3DScene.geometry exampleRigid3DScene.bodies = .ok [some y, some z] ∧
    y.v = ![-1, -1, 0] ∧ IsSolidMass (ballSet3 0 (1 / 4 : ℚ)) (4351 / 2500 : ℚ) ⟨y.M, 0, y.I⟩ ∧ TurnsAbout ![0, 0, (1 / 2 : ℚ)] z.R := by
  obtain ⟨states, hs, hf⟩ := C72_bodies ⟨true, true⟩ (fun _ => .fail) meshes _ _ (exampleRigid3D_loads _ _)
  cases hf with
  | cons h1 hf =>
    cases hf with
    | cons h2 hf =>
      cases hf
      obtain ⟨g1, hg1, h1⟩ := h1
      obtain ⟨g2, hg2, h2⟩ := h2
      obtain rfl := Option.some.inj hg1
      obtain rfl := Option.some.inj hg2
      obtain ⟨y, rfl, hv, -, CM, shape, -, -, hy⟩ := h1 ⟨fun r h => (by cases h), fun r h => by cases h⟩
      obtain ⟨z, rfl, -, -, CM', shape', -, ⟨a, b, c, hr, Q, hQ, hzR⟩, hz⟩ :=
        h2 ⟨fun r h => (by cases h; exact ⟨_, _, _, rfl⟩), fun r h => (by cases h; exact ⟨_, _, _, rfl⟩)⟩
      refine ⟨y, z, hs, ?_, ?_, ?_⟩
      · rw [hv]
        funext k
        fin_cases k <;> simp [vecOf]
      · obtain ⟨rfl, -, hm⟩ := hy (by norm_num)
        exact hm
      · obtain ⟨-, rfl, -⟩ := hz (by norm_num)
        injection hr with h0 hr
        injection hr with h1 h2
        injection h0 with h0
        injection h1 with h1
        injection h2 with h2
        subst h0 h1 h2
        rw [hzR, Matrix.mul_one]
        simpa using hQ

/-- The hypotheses of `C72_returns_partial` hold of it. -/
example : Rigid3DListsPresent exampleRigid3DRoot ∧ SolverOptionsKnown .rigidBody3D exampleRigid3DRoot ∧
    (∀ nd ∈ exampleRigid3DRoot.all "rigid_body_with_density", ¬ nd.Int lenientReading "geo_idx" (-2 ^ 31)) ∧
    ∀ nd t, exampleRigid3DRoot.first "integrator" = some nd → nd.attr "dt" = some t → (extractRational t.toList).Returns := by
  have hall : ∀ (name a : String), ((exampleRigid3DRoot.all name).all fun nd => nd.attr a ≠ some "") = true → ∀ nd ∈ exampleRigid3DRoot.all name, nd.attr a ≠ some "" := by
    intro name a h nd hnd
    simpa using List.all_eq_true.mp h nd hnd
  refine ⟨⟨hall _ _ (by decide +kernel), ?_, ?_, ?_, fun nd h => ⟨hall _ _ (by decide +kernel) nd h, hall _ _ (by decide +kernel) nd h⟩,
    fun nd h => ⟨hall _ _ (by decide +kernel) nd h, hall _ _ (by decide +kernel) nd h⟩, hall _ _ (by decide +kernel), hall _ _ (by decide +kernel), hall _ _ (by decide +kernel),
    hall _ _ (by decide +kernel)⟩, ⟨fun h => (by cases h), ?_⟩, ?_, ?_⟩
  · rintro nd h
    obtain rfl := Option.some.inj h
    decide
  · rintro nd h
    cases h
  · rintro nd h
    obtain rfl := Option.some.inj h
    decide
  · rintro nd h
    obtain rfl := Option.some.inj h
    exact ⟨fun t ht => (by cases ht), fun h => (by cases h)⟩
  · have : (exampleRigid3DRoot.all "rigid_body_with_density").all (fun nd => decide (nd.int "geo_idx" ≠ .ok (-2 ^ 31))) = true := by decide +kernel
    intro nd hnd hi
    have h1 := List.all_eq_true.mp this nd hnd
    exact of_decide_eq_true h1 ((int_ok _ _ _).mpr hi)
  · rintro nd t h ht
    obtain rfl := Option.some.inj h
    obtain rfl := Option.some.inj ht
    exact Or.inr ⟨⟨1, 100⟩, by decide +kernel⟩

/-! ## Files that are not in the format -/

/-- A scene of `dmv` steps of length 1/2 with some more elements -/
def rigid3DWith (l : List XmlNode) : XmlNode := .mk "" [] [.mk "rigidbody3d_scene" [] (.mk "integrator" [("type", "dmv"), ("dt", "0.5")] [] :: l)]

/-- What it is without them -/
def emptyRigid3DScene : Rigid3DScene where
  script := ""
  endTime := none
  forces := []
  view := none
  dtText := "0.5"
  dt := ⟨1, 2⟩
  integrator := .dmv
  solvers := ⟨none, none, none, none, none, none⟩
  boundary := none
  planes := []
  cylinders := []
  planeRenderers := []
  cylinderRenderers := []
  portals := []
  portalRenderers := []
  geometry := []
  bodies := []

/-- A mesh file that cannot be read -/
def noMeshes : MeshFiles := fun _ => .fail

/-- **C72 is false in full**: a body of negative density is loaded; its mass is negative. -/
theorem C72_false_density (b : Build) (meshes : String → MeshMoments) : ∃ s, parseRigid3DScene b noMeshes (rigid3DWith [.mk "geometry" [("type", "sphere"), ("r", "1")] [],
      .mk "rigid_body_with_density" [("x", "0 0 0"), ("v", "0 0 0"), ("omega", "0 0 0"), ("rho", "-1"), ("fixed", "0"), ("geo_idx", "0")] []]) = .ok s ∧
    ∃ y, bodyStates3D meshes s.geometry s.bodies = .ok [some y] ∧ y.M < 0 := by
  refine ⟨{ emptyRigid3DScene with geometry := [.sphere 1], bodies := [⟨(0, 0, 0), (0, 0, 0), (0, 0, 0), -1, false, 0, none⟩] }, ?_, _, rfl, ?_⟩
  · obtain ⟨_ | _, _ | _⟩ := b <;> decide +kernel
  · simp only [sphereMass]
    have := Real.pi_pos
    norm_num
    exact this

/-- **A plane without a normal** is loaded. -/
theorem C72_false_normal (b : Build) : parseRigid3DScene b noMeshes (rigid3DWith [.mk "static_plane" [("x", "0 0 0"), ("n", "0 0 0")] []]) =
    .ok { emptyRigid3DScene with planes := [⟨(.finite 0, .finite 0, .finite 0), (.finite 0, .finite 0, .finite 0)⟩] } := by
  obtain ⟨_ | _, _ | _⟩ := b <;> decide +kernel

/-- **A renderer of a plane that does not exist**: the number one past the last is accepted, for planes and for cylinders. -/
theorem C72_false_renderer (b : Build) : ∃ s, parseRigid3DScene b noMeshes (rigid3DWith [.mk "static_plane_renderer" [("plane", "0"), ("r", "1 1")] [],
      .mk "static_cylinder_renderer" [("cylinder_idx", "0"), ("L", "1")] []]) = .ok s ∧
    s.planes = [] ∧ s.planeRenderers = [⟨0, (.finite 1, .finite 1)⟩] ∧ s.cylinders = [] ∧ s.cylinderRenderers = [(0, 1)] := by
  refine ⟨{ emptyRigid3DScene with planeRenderers := [⟨0, (.finite 1, .finite 1)⟩], cylinderRenderers := [(0, 1)] }, ?_, rfl, rfl, rfl, rfl⟩
  obtain ⟨_ | _, _ | _⟩ := b <;> decide +kernel

/-- **An empty list**: `std::string::back` is called for the empty text, which is undefined. -/
theorem C72_false_empty (b : Build) : parseRigid3DScene b noMeshes (rigid3DWith [.mk "near_earth_gravity" [("f", "")] []]) = .ub := by
  obtain ⟨_ | _, _ | _⟩ := b <;> decide +kernel

/-- **The smallest `int`** as the index of a shape: its absolute value is not an `int`. -/
theorem C72_false_index (b : Build) : parseRigid3DScene b noMeshes (rigid3DWith [.mk "geometry" [("type", "sphere"), ("r", "1")] [],
      .mk "rigid_body_with_density" [("x", "0 0 0"), ("v", "0 0 0"), ("omega", "0 0 0"), ("rho", "1"), ("fixed", "0"), ("geo_idx", "-2147483648")] []]) = .ub := by
  obtain ⟨_ | _, _ | _⟩ := b <;> decide +kernel

/-- **An unknown option** of the cache ends the program, with `symplectic_euler`. -/
theorem C72_false_exit (b : Build) : parseRigid3DScene b noMeshes (rigid3DWith [.mk "sobogus_friction_solver" [("mu", "2.0"), ("CoR", "0"), ("eval_every", "25"), ("max_iters", "5000"),
      ("tol", "1.0e-12"), ("staggering", "symplectic_euler"), ("cache_impulses", "all"), ("stabilization", "0"), ("penetration_threshold", "0")] []]) = .exit := by
  obtain ⟨_ | _, _ | _⟩ := b <;> decide +kernel

/-- **The friction operator of the example** in the comment before `loadGRRFrictionSolver` (rigidbody3dutils/RigidBody3DSceneParser.cpp:1971-1983), with its solver in an element of its
own, is rejected: the name of the solver is looked for in `friction_operator` itself. -/
theorem C72_false_grr : parseRigid3DScene ⟨true, true⟩ noMeshes (rigid3DWith [.mk "grr_friction_solver" [("mu", "2.0"), ("CoR", "0.8"), ("staggering", "geometric")] [
      .mk "impact_operator" [("type", "gr"), ("v_tol", "1.0e-9")] [.mk "solver" [("name", "ql"), ("tol", "1.0e-12")] []],
      .mk "friction_operator" [("type", "smooth")] [.mk "solver" [("name", "ipopt"), ("linear_solvers", "ma97"), ("tol", "1.0e-12")] []]]]) = .fail := by
  decide +kernel

/-- **A staple without extent**: its centreline is a point, and the centre of mass the quotient of zero by zero. -/
theorem C72_false_staple (b : Build) : parseRigid3DScene b noMeshes (rigid3DWith [.mk "geometry" [("type", "staple"), ("w", "1"), ("l", "1"), ("D", "1")] []]) =
      .ok { emptyRigid3DScene with geometry := [.staple 1 1 1] } ∧
    (Staple.make 1 1 1).l * (Staple.make 1 1 1).l = 0 ∧ 2 * (Staple.make 1 1 1).l + (Staple.make 1 1 1).w = 0 := by
  refine ⟨?_, by simp [Staple.make], by simp [Staple.make]⟩
  obtain ⟨_ | _, _ | _⟩ := b <;> decide +kernel

/-- **What follows a number is ignored**, and so a decimal comma. -/
theorem C72_false_trailing (b : Build) : parseRigid3DScene b noMeshes (rigid3DWith [.mk "near_earth_gravity" [("f", "0 -9,81 0")] []]) =
    .ok { emptyRigid3DScene with forces := [(.finite 0, .finite (-9), .finite 0)] } := by
  obtain ⟨_ | _, _ | _⟩ := b <;> decide +kernel

end Scisim
