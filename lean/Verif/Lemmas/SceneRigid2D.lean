import Verif.Spec.SceneRigid2D
import Verif.Lemmas.SceneBall2D
import Verif.Lemmas.SceneSafe
/-!
# Scene files of the simulation of two dimensional rigid bodies: helper lemmas
-/

namespace Scisim

theorem loadPoint2_ok (nd : XmlNode) (a : String) (p : ListScalar × ListScalar) : loadPoint2 nd a = .ok p ↔ nd.Pair lenientReading a p := by
  simp only [loadPoint2, Outcome.bind_eq_ok, list_ok, XmlNode.Pair]
  constructor
  · rintro ⟨l, ⟨hl, t, ht, h⟩, hm⟩
    obtain ⟨x, y, rfl⟩ := List.length_eq_two.mp hl
    cases hm
    exact ⟨t, ht, h⟩
  · rintro ⟨t, ht, h⟩
    exact ⟨_, ⟨rfl, t, ht, h⟩, rfl⟩

theorem loadCamera2D_ok (root : XmlNode) (c : Option Camera2D) : loadCamera2D root = .ok c ↔ DescribesCamera2D lenientReading root c := by
  unfold loadCamera2D DescribesCamera2D
  cases h : root.first "camera" with
  | none => simp [eq_comm]
  | some nd =>
    simp only [Outcome.bind_eq_ok, ↓bind_failIf, scalar_ok, int_ok, flag_ok, loadPoint2_ok, decide_eq_false_iff_not, not_le, Outcome.ok.injEq, reduceCtorEq, false_and, false_or,
      Option.some.injEq]
    constructor
    · rintro ⟨p, hp, s, hs, h0, n, hn, hn0, r, hr, l, hl, rfl⟩
      obtain ⟨m, rfl⟩ := Int.eq_ofNat_of_zero_le hn0.le
      exact ⟨nd, _, rfl, rfl, hp, hs, h0, hn, by simpa using hn0, hr, hl⟩
    · rintro ⟨_, k, rfl, rfl, hp, hs, h0, hn, hn0, hr, hl⟩
      exact ⟨_, hp, _, hs, h0, _, hn, by exact_mod_cast hn0, _, hr, _, hl, by simp⟩

theorem loadRigid2DIntegrator_ok (root : XmlNode) (x : String × Rat64 × Option BallIntegrator) :
    loadRigid2DIntegrator root = .ok x ↔ DescribesIntegrator2D lenientReading root x.1 x.2.1 x.2.2 := by
  obtain ⟨text, dt, i⟩ := x
  unfold loadRigid2DIntegrator DescribesIntegrator2D
  cases h : root.first "integrator" with
  | none => simp [eq_comm]
  | some nd =>
    simp only [Outcome.bind_eq_ok, require_ok, loadDt_ok, reduceCtorEq, false_and, false_or]
    constructor
    · rintro ⟨⟨t, d⟩, hd, type, htype, h⟩
      simp only at h
      split at h
      · rename_i hs
        subst hs
        cases h
        exact ⟨nd, _, rfl, hd, Or.inr ⟨htype, rfl⟩, rfl⟩
      · split at h
        · rename_i hs
          subst hs
          cases h
          exact ⟨nd, _, rfl, hd, Or.inl ⟨htype, rfl⟩, rfl⟩
        · cases h
    · rintro ⟨nd', k, hnd, hd, hi, rfl⟩
      cases hnd
      rcases hi with ⟨ht, rfl⟩ | ⟨ht, rfl⟩
      · exact ⟨(text, dt), hd, _, ht, by simp⟩
      · exact ⟨(text, dt), hd, _, ht, by simp⟩

theorem loadPlane2D_ok (nd : XmlNode) (p : Plane2DElement) : loadPlane2D nd = .ok p ↔ IsPlane2D lenientReading nd p := by
  simp only [loadPlane2D, Outcome.bind_eq_ok, ↓bind_failIf, loadPoint2_ok, Outcome.ok.injEq, decide_eq_false_iff_not, Prod.ext_iff]
  constructor
  · rintro ⟨x, hx, n, hn, h0, rfl⟩
    exact ⟨hx, hn, h0⟩
  · rintro ⟨hx, hn, h0⟩
    exact ⟨_, hx, _, hn, h0, rfl⟩

theorem nonpositive_false (x : ListScalar) : x.nonpositive = false ↔ x.Positive := by
  cases x <;> simp [ListScalar.nonpositive, ListScalar.Positive]

theorem loadGeometry2D_ok (nd : XmlNode) (g : Geometry2DElement) : loadGeometry2D nd = .ok g ↔ IsGeometry2D lenientReading nd g := by
  simp only [loadGeometry2D, Outcome.bind_eq_ok, require_ok]
  constructor
  · rintro ⟨type, ht, h⟩
    split_ifs at h with h1 h2
    · subst h1
      simp only [Outcome.bind_eq_ok, ↓bind_failIf, scalar_ok, decide_eq_false_iff_not, not_le, Outcome.ok.injEq] at h
      obtain ⟨r, hr, h0, rfl⟩ := h
      exact ⟨ht, hr, h0⟩
    · subst h2
      simp only [Outcome.bind_eq_ok, ↓bind_failIf, loadPoint2_ok, Bool.or_eq_false_iff, nonpositive_false, Outcome.ok.injEq] at h
      obtain ⟨r, hr, h0, rfl⟩ := h
      exact ⟨ht, hr, h0⟩
  · intro h
    cases g with
    | circle r =>
      obtain ⟨ht, hr, h0⟩ := h
      refine ⟨_, ht, ?_⟩
      rw [if_pos rfl]
      simp only [Outcome.bind_eq_ok, ↓bind_failIf, scalar_ok, decide_eq_false_iff_not, not_le, Outcome.ok.injEq]
      exact ⟨r, hr, h0, rfl⟩
    | box r =>
      obtain ⟨ht, hr, h0⟩ := h
      refine ⟨_, ht, ?_⟩
      rw [if_neg (by decide), if_pos rfl]
      simp only [Outcome.bind_eq_ok, ↓bind_failIf, loadPoint2_ok, Bool.or_eq_false_iff, nonpositive_false, Outcome.ok.injEq]
      exact ⟨r, hr, h0, rfl⟩

theorem loadFixed_ok (nd : XmlNode) (f : Bool) : loadFixed nd = .ok f ↔ (nd.attr "fixed" = none ∧ f = false) ∨ nd.Flag lenientReading "fixed" f := by
  unfold loadFixed XmlNode.Flag
  cases h : nd.attr "fixed" with
  | none => simp [eq_comm]
  | some t =>
    simp only [reduceCtorEq, false_and, false_or, Option.some.injEq, exists_eq_left', checked_ok]
    exact extractBool_value _ _

theorem loadBody2D_ok (n : ℕ) (nd : XmlNode) (c : Body2DElement) : loadBody2D n nd = .ok c ↔ IsBody2D lenientReading n nd c := by
  simp only [loadBody2D, Outcome.bind_eq_ok, ↓bind_failIf, scalar_ok, int_ok, loadPoint2_ok, loadFixed_ok, decide_eq_false_iff_not, not_le, Bool.or_eq_false_iff, not_lt,
    ge_iff_le, Outcome.ok.injEq]
  constructor
  · rintro ⟨x, hx, th, hth, v, hv, om, hom, rho, hrho, h0, g, hg, ⟨hg0, hgn⟩, f, hf, rfl⟩
    obtain ⟨m, rfl⟩ := Int.eq_ofNat_of_zero_le hg0
    exact ⟨hx, hth, hv, hom, hrho, h0, hg, by simpa using hgn, hf⟩
  · rintro ⟨hx, hth, hv, hom, hrho, h0, hg, hgn, hf⟩
    exact ⟨_, hx, _, hth, _, hv, _, hom, _, hrho, h0, _, hg, ⟨by simp, by exact_mod_cast hgn⟩, _, hf, by simp⟩

theorem rigidBadBounds_false (x : ℚ) : rigidBadBounds x = false ↔ 0 ≤ x := by simp [rigidBadBounds]

theorem loadNearEarthGravity2D_ok (nd : XmlNode) (f : ListScalar × ListScalar) : loadNearEarthGravity2D nd = .ok f ↔ nd.Pair lenientReading "f" f :=
  loadPoint2_ok nd "f" f

theorem parseRigid2DScene_ok (b : Build) (doc : XmlNode) (s : Rigid2DScene) : parseRigid2DScene b doc = .ok s ↔ DescribesRigid2DScene lenientReading b doc s := by
  simp only [parseRigid2DScene, loadRigid2DScene, Outcome.bind_eq_ok, requireChild_ok, loadScripting_ok, loadEndTime_ok, loadCamera2D_ok, loadRigid2DIntegrator_ok, loadSolvers_ok,
    mapNodes_iff loadNearEarthGravity2D_ok, mapNodes_iff loadPlane2D_ok, loadPlanarPortals_ok rigidBadBounds _ rigidBadBounds_false,
    mapNodes_iff loadGeometry2D_ok, mapNodes_iff (loadBody2D_ok _), Outcome.ok.injEq, DescribesRigid2DScene]
  constructor
  · rintro ⟨root, hroot, script, hscript, t, ht, cam, hcam, ⟨dtText, dt, i⟩, hi, sol, hsol, f, hf, planes, hpl, ⟨left, portals⟩, hpo, g, hg, bodies, hb, rfl⟩
    exact ⟨root, hroot, hscript, ht, hcam, hi, hsol, hf, ⟨planes, hpl, hpo⟩, hg, bodies, hb, rfl, rfl, rfl, rfl, rfl⟩
  · obtain ⟨script, endTime, cam, dtText, dt, integrator, solvers, forces, left, portals, g, q, v, rho, idx, fixed⟩ := s
    rintro ⟨root, hroot, hscript, ht, hcam, hi, hsol, hf, ⟨planes, hpl, hpo⟩, hg, bodies, hb, hq, hv, hr, hix, hfix⟩
    simp only at hq hv hr hix hfix
    subst hq hv hr hix hfix
    exact ⟨root, hroot, script, hscript, endTime, ht, cam, hcam, (dtText, dt, integrator), hi, solvers, hsol, forces, hf, planes, hpl, (left, portals), hpo, g, hg, bodies, hb, rfl⟩

section mono
variable {R R' : SceneReading} (h : R.Le R')
include h

theorem Pair.mono {nd : XmlNode} {a : String} {p : ListScalar × ListScalar} (hp : nd.Pair R a p) : nd.Pair R' a p := by
  obtain ⟨t, ht, hl⟩ := hp
  exact ⟨t, ht, h.list _ _ hl⟩

theorem DescribesRigid2DScene.mono {b : Build} {doc : XmlNode} {s : Rigid2DScene} (hd : DescribesRigid2DScene R b doc s) : DescribesRigid2DScene R' b doc s := by
  obtain ⟨root, hroot, hs, he, hcam, hi, ⟨c, hc, hcs⟩, hf, ⟨planes, hpl, hpo⟩, hg, bodies, hb, hrest⟩ := hd
  refine ⟨root, hroot, hs, DescribesEnd.mono h he, ?_, ?_, ⟨c, DescribesContacts.mono h hc, hcs⟩, hf.imp fun nd f hf => Pair.mono h hf,
    ⟨planes, hpl.imp ?_, DescribesPortals.mono h hpo⟩, hg.imp ?_, bodies, hb.imp ?_, hrest⟩
  · rcases hcam with hcam | ⟨nd, k, hnd, hk, h1, h2, h3, h4, h5, h6, h7⟩
    · exact Or.inl hcam
    · exact Or.inr ⟨nd, k, hnd, hk, Pair.mono h h1, Number.mono h h2, h3, Int.mono' h h4, h5, Flag.mono h h6, Flag.mono h h7⟩
  · rcases hi with hi | ⟨nd, k, hnd, hst, hk⟩
    · exact Or.inl hi
    · exact Or.inr ⟨nd, k, hnd, IsStep.mono h hst, hk⟩
  · rintro nd p ⟨h1, h2, h3⟩
    exact ⟨Pair.mono h h1, Pair.mono h h2, h3⟩
  · rintro nd g hg
    cases g with
    | circle r => exact ⟨hg.1, Number.mono h hg.2.1, hg.2.2⟩
    | box r => exact ⟨hg.1, Pair.mono h hg.2.1, hg.2.2⟩
  · rintro nd c ⟨h1, h2, h3, h4, h5, h6, h7, h8, h9⟩
    exact ⟨Pair.mono h h1, Number.mono h h2, Pair.mono h h3, Number.mono h h4, Number.mono h h5, h6, Int.mono' h h7, h8, h9.imp id (Flag.mono h)⟩

end mono

theorem scalarList_returns (nd : XmlNode) (a : String) (n : ℕ) (h : nd.attr a ≠ some "") : (nd.scalarList a n).Returns := by
  refine (require_returns _ _).bind fun t ht => ?_
  have ht := (require_ok _ _ _).mp ht
  have hne : t.toList ≠ [] := by
    intro he
    apply h
    rw [ht, String.toList_eq_nil_iff.mp he]
  obtain ⟨tokens, htk, -⟩ := C04_tokenize t.toList ' ' hne
  unfold readScalarList
  rw [htk]
  show (if tokens.length ≠ n then Outcome.fail else mapNodes extractListScalar tokens).Returns
  split_ifs
  · exact .fail
  · refine mapNodes_returns _ _ fun s _ => ?_
    unfold extractListScalar
    split
    · exact .ok _
    · split_ifs
      · exact .ok _
      · exact .ok _
      · exact .fail

theorem loadPoint2_returns (nd : XmlNode) (a : String) (h : nd.attr a ≠ some "") : (loadPoint2 nd a).Returns := by
  refine (scalarList_returns nd a 2 h).bind fun l _ => ?_
  split
  · exact .ok _
  · exact .fail

end Scisim
