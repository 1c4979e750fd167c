import Verif.Lemmas.XmlExport
import Mathlib.Analysis.Real.Pi.Bounds
/-!
# C81: saving a state of three dimensional rigid bodies as a scene file

The format is that of C72. `fmt` is how a number is written, `val` what is then read for it; `aa` is the conversion of a rotation to an angle and an axis.
-/

namespace Scisim

open Matrix

variable {fmt : ℝ → List Char} {val : ℝ → ℚ} {aa : Mat3 → ℝ × Vec3} {geometry : List StoredGeometry} {bodies : List StoredBody}

/-- **C81 (what is saved).** A file is written exactly if there are only balls and meshes. (`hb`: every body has a shape.) -/
theorem C81_saves (hb : ∀ b ∈ bodies, b.geo < geometry.length) :
    (∃ els, saveToXML fmt aa geometry bodies = .ok (sceneOf els)) ↔ ∀ g ∈ geometry, (∃ r, g = .sphere r) ∨ ∃ f v, g = .mesh f v := by
  constructor
  · rintro ⟨els, h⟩ g hg
    obtain ⟨gs, bs, h1, -, -⟩ := saveToXML_ok.mp h
    obtain ⟨i, hi, rfl⟩ := List.getElem_of_mem hg
    have := h1.get hi (by rw [← h1.length_eq]; exact hi)
    simp only [List.get_eq_getElem] at this
    generalize geometry[i] = g at this
    cases g with
    | sphere r => exact Or.inl ⟨r, rfl⟩
    | box w => cases this
    | staple w l D => cases this
    | mesh f v => exact Or.inr ⟨f, v, rfl⟩
  · intro h
    have h1 : ∀ l : List StoredGeometry, (∀ g ∈ l, (∃ r, g = .sphere r) ∨ ∃ f v, g = .mesh f v) → ∃ gs, List.Forall₂ (fun g nd => exportGeometry fmt g = .ok nd) l gs := by
      intro l hl
      induction l with
      | nil => exact ⟨[], .nil⟩
      | cons g l ih =>
        obtain ⟨gs, hgs⟩ := ih fun g hg => hl g (List.mem_cons_of_mem _ hg)
        rcases hl g List.mem_cons_self with ⟨r, rfl⟩ | ⟨f, v, rfl⟩
        · exact ⟨_ :: gs, .cons rfl hgs⟩
        · exact ⟨_ :: gs, .cons rfl hgs⟩
    have h2 : ∀ l : List StoredBody, (∀ b ∈ l, b.geo < geometry.length) → ∃ bs, List.Forall₂ (fun b nd => exportBody fmt aa geometry b = .ok nd) l bs := by
      intro l hl
      induction l with
      | nil => exact ⟨[], .nil⟩
      | cons b l ih =>
        obtain ⟨bs, hbs⟩ := ih fun g hg => hl g (List.mem_cons_of_mem _ hg)
        have hlt := hl b List.mem_cons_self
        obtain ⟨nd, hnd⟩ : ∃ nd, exportBody fmt aa geometry b = .ok nd := by
          unfold exportBody
          rw [List.getElem?_eq_getElem hlt]
          exact ⟨_, rfl⟩
        exact ⟨nd :: bs, .cons hnd hbs⟩
    obtain ⟨gs, hgs⟩ := h1 _ h
    obtain ⟨bs, hbs⟩ := h2 _ hb
    exact ⟨gs ++ bs, saveToXML_ok.mpr ⟨gs, bs, hgs, hbs, rfl⟩⟩

/-- **C81 (false: every state can be saved).** With a box or a staple the program ends, in the middle of the file; whatever had not been saved is lost. -/
theorem C81_exit_false (h : ∃ g ∈ geometry, (∃ w, g = .box w) ∨ ∃ w l D, g = .staple w l D) : saveToXML fmt aa geometry bodies = .exit := by
  have h1 : ∀ l : List StoredGeometry, (∃ g ∈ l, (∃ w, g = .box w) ∨ ∃ w l D, g = .staple w l D) → mapNodes (exportGeometry fmt) l = .exit := by
    intro l hl
    induction l with
    | nil => obtain ⟨g, hg, -⟩ := hl; cases hg
    | cons g l ih =>
      have key : (∃ g ∈ l, (∃ w, g = .box w) ∨ ∃ w l D, g = .staple w l D) ∨ ((∃ w, g = .box w) ∨ ∃ w l D, g = .staple w l D) := by
        obtain ⟨g', hg', hs⟩ := hl
        rcases List.mem_cons.mp hg' with rfl | hg'
        · exact Or.inr hs
        · exact Or.inl ⟨g', hg', hs⟩
      cases g with
      | box w => rfl
      | staple w l D => rfl
      | sphere r =>
        rcases key with key | ⟨w, h⟩ | ⟨_, _, _, h⟩
        · rw [mapNodes, exportGeometry, ih key]; rfl
        · cases h
        · cases h
      | mesh f v =>
        rcases key with key | ⟨w, h⟩ | ⟨_, _, _, h⟩
        · rw [mapNodes, exportGeometry, ih key]; rfl
        · cases h
        · cases h
  unfold saveToXML
  rw [h1 _ h]; rfl

/-- **C81 (false: a file that was saved can be opened).** It never can: an integrator is required, and none is written. -/
theorem C81_open_false (doc : XmlNode) (h : saveToXML fmt aa geometry bodies = .ok doc) (b : Build) (files : MeshFiles) : parseRigid3DScene b files doc = .fail := by
  obtain ⟨gs, bs, hg, hb, rfl⟩ := saveToXML_ok.mp h
  have hf : ∀ n, n ≠ "geometry" → n ≠ "rigid_body_with_density" → (XmlNode.mk "rigidbody3d_scene" [] (gs ++ bs)).first n = none := by
    intro n h1 h2
    show (gs ++ bs).find? _ = none
    rw [List.find?_append, find_export hg (fun _ _ => exportGeometry_name) h1.symm, find_export hb (fun _ _ => exportBody_name) h2.symm]
    rfl
  have ha : ∀ n, n ≠ "geometry" → n ≠ "rigid_body_with_density" → (XmlNode.mk "rigidbody3d_scene" [] (gs ++ bs)).all n = [] := by
    intro n h1 h2
    show (gs ++ bs).filter _ = []
    rw [List.filter_append, filter_export hg (fun _ _ => exportGeometry_name), filter_export hb (fun _ _ => exportBody_name), if_neg h1.symm, if_neg h2.symm]
    rfl
  have e : parseRigid3DScene b files (sceneOf (gs ++ bs)) = loadRigid3DScene b files (XmlNode.mk "rigidbody3d_scene" [] (gs ++ bs)) := rfl
  rw [e]
  generalize XmlNode.mk "rigidbody3d_scene" [] (gs ++ bs) = root at hf ha
  have e1 : loadScripting root = .ok "" := by rw [loadScripting, hf _ (by decide) (by decide)]
  have e2 : loadEndTime root = .ok none := by rw [loadEndTime, hf _ (by decide) (by decide)]
  have e3 : loadView root = .ok none := by
    unfold loadView loadOptional
    rw [hf _ (by decide) (by decide), hf _ (by decide) (by decide)]; rfl
  have e4 : loadRigid3DIntegrator root = .fail := by
    unfold loadRigid3DIntegrator XmlNode.requireChild
    rw [hf _ (by decide) (by decide)]; rfl
  unfold loadRigid3DScene
  rw [e1, e2, ha _ (by decide) (by decide), e3, e4]
  rfl

/-- **C81 (partial).** The elements that are saved, put into a scene file that can be opened and has no shapes and bodies of its own (everything else has to be there:
the integrator, the planes, the forces, …): the file can be opened, and the scene is that of the file with the shapes and bodies that were saved, up to what is lost in writing
their numbers. Missing, since it is false: the file can be opened as it is (`C81_open_false`). -/
theorem C81_pasted_partial (hf : Formats fmt val) (els : List XmlNode) (h : saveToXML fmt aa geometry bodies = .ok (sceneOf els))
    (hp : ∀ r, .sphere r ∈ geometry → 0 < val r) (hi : ∀ b ∈ bodies, b.geo < 2 ^ 31)
    (b : Build) (files : MeshFiles) (hm : ∀ f v, .mesh f v ∈ geometry → files f = .ok ()) (head : List XmlNode) (he : EmptyScene head) (s : Rigid3DScene)
    (hs : parseRigid3DScene b files (sceneOf head) = .ok s) :
    ∃ g l, parseRigid3DScene b files (sceneOf (head ++ els)) = .ok { s with geometry := g, bodies := l } ∧ List.Forall₂ (StandsFor val) geometry g ∧
      List.Forall₂ (StandsForBody val aa geometry) bodies l := by
  obtain ⟨gs, bs, hg, hb, hd⟩ := saveToXML_ok.mp h
  obtain rfl : els = gs ++ bs := by
    unfold sceneOf at hd
    injection hd with _ _ h; injection h with h _; injection h
  have hfirst : ∀ n, n ≠ "geometry" → n ≠ "rigid_body_with_density" →
      (XmlNode.mk "rigidbody3d_scene" [] (head ++ (gs ++ bs))).first n = (XmlNode.mk "rigidbody3d_scene" [] head).first n := by
    intro n h1 h2
    show (head ++ (gs ++ bs)).find? _ = head.find? _
    rw [List.find?_append, List.find?_append, find_export hg (fun _ _ => exportGeometry_name) h1.symm, find_export hb (fun _ _ => exportBody_name) h2.symm]
    simp
  have hall : ∀ n, n ≠ "geometry" → n ≠ "rigid_body_with_density" →
      (XmlNode.mk "rigidbody3d_scene" [] (head ++ (gs ++ bs))).all n = (XmlNode.mk "rigidbody3d_scene" [] head).all n := by
    intro n h1 h2
    show (head ++ (gs ++ bs)).filter _ = head.filter _
    rw [List.filter_append, List.filter_append, filter_export hg (fun _ _ => exportGeometry_name), filter_export hb (fun _ _ => exportBody_name), if_neg h1.symm, if_neg h2.symm]
    simp
  have hgs : (XmlNode.mk "rigidbody3d_scene" [] (head ++ (gs ++ bs))).all "geometry" = gs := by
    show (head ++ (gs ++ bs)).filter _ = gs
    rw [List.filter_append, List.filter_append, filter_export hg (fun _ _ => exportGeometry_name), filter_export hb (fun _ _ => exportBody_name), if_pos rfl, if_neg (by decide),
      List.filter_eq_nil_iff.mpr (fun nd hnd => by simpa using (he nd hnd).1)]
    simp
  have hbs : (XmlNode.mk "rigidbody3d_scene" [] (head ++ (gs ++ bs))).all "rigid_body_with_density" = bs := by
    show (head ++ (gs ++ bs)).filter _ = bs
    rw [List.filter_append, List.filter_append, filter_export hg (fun _ _ => exportGeometry_name), filter_export hb (fun _ _ => exportBody_name), if_pos rfl, if_neg (by decide),
      List.filter_eq_nil_iff.mpr (fun nd hnd => by simpa using (he nd hnd).2)]
    simp
  -- the elements
  obtain ⟨g, hg1, hg2⟩ : ∃ g, List.Forall₂ (IsGeometry3D lenientReading files) gs g ∧ List.Forall₂ (StandsFor val) geometry g := by
    have key : ∀ (l : List StoredGeometry) (gs : List XmlNode), (∀ x ∈ l, x ∈ geometry) → List.Forall₂ (fun g nd => exportGeometry fmt g = .ok nd) l gs →
        ∃ g, List.Forall₂ (IsGeometry3D lenientReading files) gs g ∧ List.Forall₂ (StandsFor val) l g := by
      intro l gs hl hgs
      induction hgs with
      | nil => exact ⟨[], .nil, .nil⟩
      | @cons x nd l gs hx _ ih =>
        obtain ⟨g, h1, h2⟩ := ih fun y hy => hl y (List.mem_cons_of_mem _ hy)
        obtain ⟨e, he⟩ := standsFor_of_export (val := val) hx
        have hxg := hl x List.mem_cons_self
        have hE := isGeometry_export hf files hx (fun r hr => hp r (hr ▸ hxg)) (fun f v hr => hm f v (hr ▸ hxg)) he
        refine ⟨e :: g, .cons ?_ h1, .cons he h2⟩
        cases e with
        | sphere r => exact ⟨hE.1, Number.mono exact_le_lenient hE.2.1, hE.2.2⟩
        | box r => cases x <;> cases he
        | staple w l D => cases x <;> cases he
        | mesh f => exact hE
    exact key geometry gs (fun _ h => h) hg
  obtain ⟨l, hl1, hl2⟩ : ∃ l, List.Forall₂ (IsBody3D lenientReading false g.length) bs l ∧ List.Forall₂ (StandsForBody val aa geometry) bodies l := by
    rw [← hg2.length_eq]
    have key : ∀ (k : List StoredBody) (bs : List XmlNode), (∀ x ∈ k, x ∈ bodies) → List.Forall₂ (fun b nd => exportBody fmt aa geometry b = .ok nd) k bs →
        ∃ l, List.Forall₂ (IsBody3D lenientReading false geometry.length) bs l ∧ List.Forall₂ (StandsForBody val aa geometry) k l := by
      intro k bs hk hbs
      induction hbs with
      | nil => exact ⟨[], .nil, .nil⟩
      | @cons x nd k bs hx _ ih =>
        obtain ⟨l, h1, h2⟩ := ih fun y hy => hk y (List.mem_cons_of_mem _ hy)
        obtain ⟨c, hc⟩ := standsForBody_of_export (val := val) hx
        obtain ⟨a1, a2, a3, a4, a5, a6, ⟨z, hz, hzi⟩, a8⟩ := isBody_export hf hx (hi x (hk x List.mem_cons_self)) hc
        refine ⟨c :: l, .cons ⟨Vector.mono' exact_le_lenient a1, Vector.mono' exact_le_lenient a2, Vector.mono' exact_le_lenient a3, Number.mono exact_le_lenient a4,
          fun h => (by cases h), Flag.mono exact_le_lenient a6, ⟨z, Int.mono' exact_le_lenient hz, hzi⟩, ?_⟩ h1, .cons hc h2⟩
        rcases a8 with a8 | ⟨r, hr, he⟩
        · exact Or.inl a8
        · exact Or.inr ⟨r, Triple.mono exact_le_lenient hr, he⟩
    exact key bodies bs (fun _ h => h) hb
  refine ⟨g, l, ?_, hg2, hl2⟩
  rw [parseRigid3DScene_ok] at hs ⊢
  obtain ⟨root, hroot, hsc, hen, hfo, ⟨p, o, hpv, hov, hv⟩, ⟨nd, hnd, hst, hin⟩, ⟨c, hc, hcs⟩, hbd, hcyl, hcr, ⟨planes, rs, hpl, hrs, hpo⟩, -, -⟩ := hs
  obtain rfl : root = XmlNode.mk "rigidbody3d_scene" [] head := (Option.some.inj hroot).symm
  refine ⟨XmlNode.mk "rigidbody3d_scene" [] (head ++ (gs ++ bs)), rfl, ?_, ?_, ?_, ⟨p, o, ?_, ?_, hv⟩, ⟨nd, ?_, hst, hin⟩, ⟨c, ?_, hcs⟩, ?_, ?_, ?_, ⟨planes, rs, ?_, ?_, ?_⟩, ?_, ?_⟩
  · unfold DescribesScript; rw [hfirst _ (by decide) (by decide)]; exact hsc
  · unfold DescribesEnd; rw [hfirst _ (by decide) (by decide)]; exact hen
  · rw [hall _ (by decide) (by decide)]; exact hfo
  · unfold DescribesOptional; rw [hfirst _ (by decide) (by decide)]; exact hpv
  · unfold DescribesOptional; rw [hfirst _ (by decide) (by decide)]; exact hov
  · rw [hfirst _ (by decide) (by decide)]; exact hnd
  · have e1 := hfirst "impact_operator" (by decide) (by decide)
    have e2 := hfirst "staggered_projections_friction_solver" (by decide) (by decide)
    have e3 := hfirst "sobogus_friction_solver" (by decide) (by decide)
    have e4 := hfirst "grr_friction_solver" (by decide) (by decide)
    cases hc with
    | ignored h1 h2 h3 h4 => exact .ignored (e1 ▸ h1) (e2 ▸ h2) (e3 ▸ h3) (fun q => e4 ▸ h4 q)
    | impact h1 h2 h3 h4 hc hca ho => exact .impact (e1 ▸ h1) (e2 ▸ h2) (e3 ▸ h3) (fun q => e4 ▸ h4 q) hc hca ho
    | staggered h1 h2 h3 h4 h5 => exact .staggered (e1 ▸ h1) (e2 ▸ h2) (e3 ▸ h3) (fun q => e4 ▸ h4 q) h5
    | sobogus h1 h2 h3 h4 h5 => exact .sobogus (e1 ▸ h1) (e2 ▸ h2) (e3 ▸ h3) (fun q => e4 ▸ h4 q) h5
    | grr h0 h1 h2 h3 h4 h5 => exact .grr h0 (e1 ▸ h1) (e2 ▸ h2) (e3 ▸ h3) (e4 ▸ h4) h5
  · unfold DescribesOptional; rw [hfirst _ (by decide) (by decide)]; exact hbd
  · rw [hall _ (by decide) (by decide)]; exact hcyl
  · rw [hall _ (by decide) (by decide)]; exact hcr
  · rw [hall _ (by decide) (by decide)]; exact hpl
  · rw [hall _ (by decide) (by decide)]; exact hrs
  · unfold DescribesPortals3 at hpo ⊢; rw [hall _ (by decide) (by decide)]; exact hpo
  · rw [hgs]; exact hg1
  · rw [hbs]; exact hl1

/-- **C81 (partial).** Balls: if nothing is lost in writing the numbers, the state that is computed for a body that was read is the state of the body that was saved:
position, velocity, orientation, angular velocity, mass and moments of inertia. (`hr`: nothing of the radii is lost.) Missing: meshes, for which it is false
(`C81_mesh_false`), and numbers with more than six digits, for which it is false (`C81_digits_false`). -/
theorem C81_states_partial (meshes : String → MeshMoments) (hr : ∀ r, .sphere r ∈ geometry → 0 < r ∧ Exact val r) (hb : ∀ b ∈ bodies, ExactBall val aa geometry b)
    (g : List Geometry3DElement) (l : List Body3DElement) (hg : List.Forall₂ (StandsFor val) geometry g) (hl : List.Forall₂ (StandsForBody val aa geometry) bodies l) :
    bodyStates3D meshes g l = .ok (bodies.map fun b => some b.state) := by
  unfold bodyStates3D
  rw [mapNodes_ok]
  induction hl with
  | nil => exact .nil
  | @cons b c bodies l hc _ ih =>
    refine .cons ?_ (ih fun x hx => hb x (List.mem_cons_of_mem _ hx))
    obtain ⟨r, rho, hgeo, hM, hI, hrho, hx, hv, hom, hrot, h1, h2, h3⟩ := hb b List.mem_cons_self
    obtain ⟨c1, c2, c3, c4, c5, ⟨g', hg', c6⟩, q, rfl, c7⟩ := hc
    rw [hgeo] at hg'
    obtain rfl := Option.some.inj hg'
    obtain ⟨hpos, hex⟩ := hr r (List.mem_of_getElem? hgeo)
    have hden : b.state.M / (StoredGeometry.sphere r).volume = rho := by
      rw [hM]
      unfold StoredGeometry.volume sphereMass
      have := Real.pi_pos
      field_simp
    have hel : g[c.geo]? = some (.sphere (val r)) := by
      rw [c5]
      obtain ⟨hlt, he⟩ := List.getElem?_eq_some_iff.mp hgeo
      have hlt' : b.geo < g.length := by rw [← hg.length_eq]; exact hlt
      have := hg.get hlt hlt'
      simp only [List.get_eq_getElem, he] at this
      rw [List.getElem?_eq_getElem hlt', show g[b.geo] = .sphere (val r) from this]
    have hR0 : c.R0 = some b.state.R := by
      unfold Body3DElement.R0
      rw [c7]
      show Option.map rotationMatrix (ListTriple.vec _) = _
      rw [listVec_written hrot, Option.map_some]
      unfold rotationVector
      rw [rotationMatrix_angleAxis h1 h2, h3]
    unfold bodyState3D
    rw [hel]
    dsimp only [Geometry3DElement.massAndInertia]
    rw [hR0, c1, c2, c3, c6, hden, vec_written hx, vec_written hv, vec_written hom]
    dsimp only
    rw [show ((val r : ℚ) : ℝ) = r from hex, show ((val rho : ℚ) : ℝ) = rho from hrho, mul_one, ← hM, ← hI]
    have : (sphereMass r rho).CM = 0 := rfl
    rw [this, add_zero]

/-- **C81 (false: meshes).** A body with a mesh whose centre of mass is not the origin of its file: if it is read back at all, and nothing of its position is lost, its position is
displaced by that centre of mass. -/
theorem C81_mesh_false (meshes : String → MeshMoments) (f : String) (v : ℝ) (b : StoredBody) (hgeo : geometry[b.geo]? = some (.mesh f v)) (hx : ExactVec val b.state.x)
    (hne : (meshes f).center ≠ 0) (g : List Geometry3DElement) (c : Body3DElement) (hg : List.Forall₂ (StandsFor val) geometry g) (hc : StandsForBody val aa geometry b c)
    (s : BodyState3D) (hs : bodyState3D meshes g c = .ok (some s)) : s.x = b.state.x + (meshes f).center ∧ s ≠ b.state := by
  obtain ⟨c1, c2, c3, c4, c5, ⟨g', hg', c6⟩, q, rfl, c7⟩ := hc
  have hel : g[c.geo]? = some (.mesh f) := by
    rw [c5]
    obtain ⟨hlt, he⟩ := List.getElem?_eq_some_iff.mp hgeo
    have hlt' : b.geo < g.length := by rw [← hg.length_eq]; exact hlt
    have := hg.get hlt hlt'
    simp only [List.get_eq_getElem, he] at this
    rw [List.getElem?_eq_getElem hlt', show g[b.geo] = .mesh f from this]
  have key : s.x = b.state.x + (meshes f).center := by
    unfold bodyState3D at hs
    rw [hel] at hs
    dsimp only [Geometry3DElement.massAndInertia] at hs
    cases hR : c.R0 with
    | none => rw [hR] at hs; cases hs
    | some R0 =>
      rw [hR] at hs
      simp only [Outcome.ok.injEq, Option.some.injEq] at hs
      rw [← hs]
      show vecOf c.x + _ = _
      rw [c1, vec_written hx]
  refine ⟨key, fun e => hne ?_⟩
  rw [e] at key
  exact left_eq_add.mp key

/-- **C81 (false: nothing of the numbers is lost).** With six digits, as streams write numbers unless told otherwise, a body at 1.000001 is not saved where it is. -/
theorem C81_digits_false (h : ∀ x, SixDigits (val x)) : ¬ Exact val (1.000001 : ℝ) := by
  intro he
  obtain ⟨m, e, hm, hv⟩ := h 1.000001
  have hq : val (1.000001 : ℝ) = 1000001 * (10 : ℚ) ^ (-6 : ℤ) := by
    have : ((val (1.000001 : ℝ) : ℚ) : ℝ) = ((1000001 / 1000000 : ℚ) : ℝ) := by rw [he]; norm_num
    rw [Rat.cast_injective this]; norm_num
  rw [hq] at hv
  have h10 : (10 : ℚ) ≠ 0 := by norm_num
  have hv' : (1000001 : ℚ) = m * (10 : ℚ) ^ (e + 6) := by
    rw [zpow_add₀ h10, ← mul_assoc, ← hv, mul_assoc, ← zpow_add₀ h10]; norm_num
  rcases lt_trichotomy (e + 6) 0 with hlt | heq | hgt
  · obtain ⟨k, hk⟩ : ∃ k : ℕ, e + 6 = -((k : ℤ) + 1) := ⟨(-(e + 6) - 1).toNat, by omega⟩
    rw [hk, zpow_neg, ← Nat.cast_succ, zpow_natCast] at hv'
    have hp : (0 : ℚ) < 10 ^ (k + 1) := by positivity
    have hz : (1000001 * 10 ^ (k + 1) : ℚ) = m := by rw [hv']; field_simp
    have hz' : (1000001 * 10 ^ (k + 1) : ℤ) = m := by exact_mod_cast hz
    have : (1 : ℤ) ≤ 10 ^ (k + 1) := one_le_pow₀ (by norm_num)
    have := le_abs_self m
    omega
  · rw [heq, zpow_zero, mul_one] at hv'
    have : m = 1000001 := by exact_mod_cast hv'.symm
    rw [this] at hm; norm_num at hm
  · obtain ⟨k, hk⟩ : ∃ k : ℕ, e + 6 = (k : ℤ) + 1 := ⟨(e + 6 - 1).toNat, by omega⟩
    rw [hk, ← Nat.cast_succ, zpow_natCast] at hv'
    have hz : (1000001 : ℤ) = m * 10 ^ (k + 1) := by exact_mod_cast hv'
    have : (10 : ℤ) ∣ 1000001 := ⟨m * 10 ^ k, by rw [hz, pow_succ]; ring⟩
    omega

/-! ## The hypotheses are met -/

/-- A way to write the numbers 0, 1 and 2 -/
noncomputable def fmtSmall (x : ℝ) : List Char := if x = 0 then ['0'] else if x = 1 then ['1'] else ['2']

/-- What it denotes -/
noncomputable def valSmall (x : ℝ) : ℚ := if x = 0 then 0 else if x = 1 then 1 else 2

theorem formats_small : Formats fmtSmall valSmall := by
  have hd : ∀ d : Digit, (Numeral.mk .none [d] none none).value = d.val := by
    intro d
    simp [Numeral.value, Numeral.fraction, Numeral.exponent, digitsNat, Sign.factor]
  intro x
  by_cases h0 : x = 0
  · refine ⟨⟨.none, [0], none, none⟩, ⟨Or.inl (by simp), by simp⟩, ?_, ?_, ?_⟩
    · rw [fmtSmall, if_pos h0]; rfl
    · rw [valSmall, if_pos h0, hd]; rfl
    · rw [valSmall, if_pos h0, DoubleRange]; decide +kernel
  · by_cases h1 : x = 1
    · refine ⟨⟨.none, [1], none, none⟩, ⟨Or.inl (by simp), by simp⟩, ?_, ?_, ?_⟩
      · rw [fmtSmall, if_neg h0, if_pos h1]; rfl
      · rw [valSmall, if_neg h0, if_pos h1, hd]; norm_num
      · rw [valSmall, if_neg h0, if_pos h1, DoubleRange]; decide +kernel
    · refine ⟨⟨.none, [2], none, none⟩, ⟨Or.inl (by simp), by simp⟩, ?_, ?_, ?_⟩
      · rw [fmtSmall, if_neg h0, if_neg h1]; rfl
      · rw [valSmall, if_neg h0, if_neg h1, hd]; norm_num
      · rw [valSmall, if_neg h0, if_neg h1, DoubleRange]; decide +kernel

theorem exact_zero : Exact valSmall 0 := by simp [Exact, valSmall]
theorem exact_one : Exact valSmall 1 := by simp [Exact, valSmall]
theorem exact_two : Exact valSmall 2 := by simp [Exact, valSmall]

/-- The angle 1 about the third axis -/
def aaOne (_ : Mat3) : ℝ × Vec3 := (1, ![0, 0, 1])

/-- A ball of radius 2 and density 1, turned about the third axis -/
noncomputable def ballSaved : StoredBody := ⟨⟨![1, 0, 2], ![0, 1, 0], (sphereMass 2 1).M, angleAxisMatrix 1 ![0, 0, 1], ![2, 0, 0], (sphereMass 2 1).I⟩, true, 1⟩

theorem exactBall_saved : ExactBall valSmall aaOne [.mesh "a.h5" 1, .sphere 2] ballSaved := by
  have hv : ∀ a b c : ℝ, Exact valSmall a → Exact valSmall b → Exact valSmall c → ExactVec valSmall ![a, b, c] := by
    intro a b c ha hb hc i
    fin_cases i
    · exact ha
    · exact hb
    · exact hc
  refine ⟨2, 1, rfl, rfl, rfl, exact_one, hv _ _ _ exact_one exact_zero exact_two, hv _ _ _ exact_zero exact_one exact_zero, hv _ _ _ exact_two exact_zero exact_zero, ?_, ?_⟩
  · have : rotationVector aaOne ballSaved.state.R = ![0, 0, 1] := by
      unfold rotationVector aaOne
      simp
    rw [this]
    exact hv _ _ _ exact_zero exact_zero exact_one
  · refine ⟨by simp [aaOne], by simp [aaOne], rfl⟩

/-- A scene without bodies -/
def emptyHead : List XmlNode := [.mk "integrator" [("type", "dmv"), ("dt", "0.5")] []]

example : EmptyScene emptyHead ∧ ∃ s, parseRigid3DScene ⟨true, true⟩ (fun _ => .ok ()) (sceneOf emptyHead) = .ok s := by
  refine ⟨?_, ?_⟩
  · intro nd hnd
    rw [List.mem_singleton.mp hnd]
    exact ⟨by decide, by decide⟩
  · cases h : parseRigid3DScene ⟨true, true⟩ (fun _ => .ok ()) (sceneOf emptyHead) with
    | ok s => exact ⟨s, rfl⟩
    | fail => exact absurd h (by decide +kernel)
    | exit => exact absurd h (by decide +kernel)
    | ub => exact absurd h (by decide +kernel)

/-- A ball that was saved is read back as it was -/
example : ∃ els g l, saveToXML fmtSmall aaOne [.mesh "a.h5" 1, .sphere 2] [ballSaved] = .ok (sceneOf els) ∧
    (∃ s, parseRigid3DScene ⟨true, true⟩ (fun _ => .ok ()) (sceneOf (emptyHead ++ els)) = .ok s ∧ s.geometry = g ∧ s.bodies = l) ∧
    bodyStates3D (fun _ => ⟨1, 0, 1, 1⟩) g l = .ok [some ballSaved.state] := by
  obtain ⟨els, hels⟩ := (C81_saves (fmt := fmtSmall) (aa := aaOne) (geometry := [.mesh "a.h5" 1, .sphere 2]) (bodies := [ballSaved]) (by
    intro b hb; rw [List.mem_singleton.mp hb]; decide)).mpr (by
      intro g hg
      simp only [List.mem_cons, List.not_mem_nil, or_false] at hg
      rcases hg with rfl | rfl
      · exact Or.inr ⟨_, _, rfl⟩
      · exact Or.inl ⟨_, rfl⟩)
  have hp : ∀ s, parseRigid3DScene ⟨true, true⟩ (fun _ => .ok ()) (sceneOf emptyHead) = s → ∃ s', s = .ok s' := by
    intro s hs
    cases s with
    | ok s => exact ⟨s, rfl⟩
    | fail => exact absurd hs (by decide +kernel)
    | exit => exact absurd hs (by decide +kernel)
    | ub => exact absurd hs (by decide +kernel)
  obtain ⟨s, hs⟩ := hp _ rfl
  have h2 : valSmall 2 = 2 := by simp [valSmall]
  obtain ⟨g, l, h1, hg, hl⟩ := C81_pasted_partial formats_small els hels (by
      intro r hr
      simp only [List.mem_cons, List.not_mem_nil, or_false, reduceCtorEq, false_or, StoredGeometry.sphere.injEq] at hr
      rw [hr, h2]; norm_num) (by
      intro b hb; rw [List.mem_singleton.mp hb]; decide) ⟨true, true⟩ (fun _ => .ok ()) (fun _ _ _ => rfl) emptyHead (by
      intro nd hnd
      rw [List.mem_singleton.mp hnd]
      exact ⟨by decide, by decide⟩) s hs
  refine ⟨els, g, l, hels, ⟨_, h1, rfl, rfl⟩, ?_⟩
  refine C81_states_partial (bodies := [ballSaved]) _ ?_ ?_ g l hg hl
  · intro r hr
    simp only [List.mem_cons, List.not_mem_nil, or_false, reduceCtorEq, false_or, StoredGeometry.sphere.injEq] at hr
    rw [hr]
    exact ⟨by norm_num, exact_two⟩
  · intro b hb
    rw [List.mem_singleton.mp hb]
    exact exactBall_saved

/-- A mesh whose centre of mass is one unit off -/
example (R : Mat3) : ∃ (meshes : String → MeshMoments) (g : List Geometry3DElement) (b : StoredBody) (c : Body3DElement) (s : BodyState3D),
    List.Forall₂ (StandsFor valSmall) [.mesh "a.h5" 1] g ∧ StandsForBody valSmall aaOne [.mesh "a.h5" 1] b c ∧ ExactVec valSmall b.state.x ∧ (meshes "a.h5").center ≠ 0 ∧
      bodyState3D meshes g c = .ok (some s) := by
  refine ⟨fun _ => ⟨1, ![1, 0, 0], 1, 1⟩, [.mesh "a.h5"], ⟨⟨0, 0, 1, R, 0, 1⟩, false, 0⟩, ⟨written valSmall 0, written valSmall 0, written valSmall 0, valSmall (1 / 1), false, 0,
    some (.finite (written valSmall (rotationVector aaOne R)).1, .finite (written valSmall (rotationVector aaOne R)).2.1, .finite (written valSmall (rotationVector aaOne R)).2.2)⟩, _,
    .cons rfl .nil, ⟨rfl, rfl, rfl, rfl, rfl, ⟨_, rfl, rfl⟩, _, rfl, rfl⟩, fun _ => exact_zero, ?_, rfl⟩
  intro h
  have := congrFun h 0
  simp at this

/-- Six digits: whole numbers up to 999999 -/
example : SixDigits 999999 ∧ SixDigits (1 / 8) := ⟨⟨999999, 0, by norm_num, by norm_num⟩, ⟨125, -3, by norm_num, by norm_num⟩⟩

example : saveToXML fmtSmall aaOne [.sphere 1, .box ![1, 1, 1]] [ballSaved] = .exit :=
  C81_exit_false ⟨_, List.mem_cons_of_mem _ List.mem_cons_self, Or.inl ⟨_, rfl⟩⟩

end Scisim
