import Verif.Spec.SceneBall2D
import Verif.Lemmas.SceneSolvers
import Verif.Props.ScenePortals
/-!
# Scene files of the simulation of balls: helper lemmas
-/

namespace Scisim

theorem forall₂_iff {α β : Type} {r s : α → β → Prop} (h : ∀ a b, r a b ↔ s a b) (l : List α) (m : List β) : List.Forall₂ r l m ↔ List.Forall₂ s l m :=
  ⟨fun hf => hf.imp fun a b => (h a b).mp, fun hf => hf.imp fun a b => (h a b).mpr⟩

theorem loadScripting_ok (root : XmlNode) (s : String) : loadScripting root = .ok s ↔ DescribesScript root s := by
  unfold loadScripting DescribesScript
  cases h : root.first "scripting" with
  | none => simp [eq_comm]
  | some nd => simp [require_ok]

theorem loadEndTime_ok (root : XmlNode) (t : Option ℚ) : loadEndTime root = .ok t ↔ DescribesEnd lenientReading root t := by
  unfold loadEndTime DescribesEnd
  cases h : root.first "end_time" with
  | none => simp [eq_comm]
  | some nd =>
    simp only [Outcome.bind_eq_ok, ↓bind_failIf, scalar_ok, decide_eq_false_iff_not, not_le, Outcome.ok.injEq, reduceCtorEq, false_and, false_or,
      Option.some.injEq]
    constructor
    · rintro ⟨x, hx, h0, rfl⟩
      exact ⟨nd, x, rfl, hx, h0, rfl⟩
    · rintro ⟨_, x, rfl, hx, h0, rfl⟩
      exact ⟨x, hx, h0, rfl⟩

theorem loadGravity_ok (nd : XmlNode) (f : ForceElement) : loadGravity nd = .ok f ↔ IsGravity lenientReading nd f := by
  simp only [loadGravity, Outcome.bind_eq_ok, scalarUnchecked_ok, Outcome.ok.injEq]
  constructor
  · rintro ⟨x, hx, y, hy, rfl⟩
    exact ⟨x, y, hx, hy, rfl⟩
  · rintro ⟨x, y, hx, hy, rfl⟩
    exact ⟨x, hx, y, hy, rfl⟩

theorem loadPenalty_ok (nd : XmlNode) (f : ForceElement) : loadPenalty nd = .ok f ↔ IsPenalty lenientReading nd f := by
  simp only [loadPenalty, Outcome.bind_eq_ok, ↓bind_failIf, scalar_ok, decide_eq_false_iff_not, not_lt, Outcome.ok.injEq]
  constructor
  · rintro ⟨x, hx, h0, y, hy, rfl⟩
    exact ⟨x, y, hx, h0, hy, rfl⟩
  · rintro ⟨x, y, hx, h0, hy, rfl⟩
    exact ⟨x, hx, h0, y, hy, rfl⟩

theorem loadDt_ok (nd : XmlNode) (x : String × Rat64) : loadDt nd = .ok x ↔ IsStep lenientReading nd x.1 x.2 := by
  obtain ⟨text, dt⟩ := x
  simp only [loadDt, Outcome.bind_eq_ok, require_ok, ↓bind_failIf, Outcome.ok.injEq, Prod.mk.injEq, Rat64.positive, Bool.not_eq_false', decide_eq_true_eq, gt_iff_lt]
  constructor
  · rintro ⟨t, ht, d, hd, h0, rfl, rfl⟩
    exact ⟨ht, hd, h0⟩
  · rintro ⟨ht, hd, h0⟩
    exact ⟨text, ht, dt, hd, h0, rfl, rfl⟩

theorem loadBallIntegrator_ok (root : XmlNode) (x : String × Rat64 × BallIntegrator) : loadBallIntegrator root = .ok x ↔
    ∃ nd, root.first "integrator" = some nd ∧ IsStep lenientReading nd x.1 x.2.1 ∧ IsBallIntegrator nd x.2.2 := by
  obtain ⟨text, dt, i⟩ := x
  simp only [loadBallIntegrator, Outcome.bind_eq_ok, require_ok, requireChild_ok, loadDt_ok]
  constructor
  · rintro ⟨nd, hnd, ⟨t, d⟩, hd, type, htype, h⟩
    simp only at h
    split at h
    · rename_i hs
      subst hs
      cases h
      exact ⟨nd, hnd, hd, Or.inl ⟨htype, rfl⟩⟩
    · split at h
      · rename_i hs
        subst hs
        cases h
        exact ⟨nd, hnd, hd, Or.inr ⟨htype, rfl⟩⟩
      · cases h
  · rintro ⟨nd, hnd, hd, ⟨ht, hi⟩ | ⟨ht, hi⟩⟩
    · subst hi
      exact ⟨nd, hnd, (text, dt), hd, _, ht, by simp⟩
    · subst hi
      exact ⟨nd, hnd, (text, dt), hd, _, ht, by simp⟩

theorem loadDrum_ok (nd : XmlNode) (d : DrumElement) : loadDrum nd = .ok d ↔ IsDrum lenientReading nd d := by
  simp only [loadDrum, Outcome.bind_eq_ok, scalarUnchecked_ok, Outcome.ok.injEq]
  constructor
  · rintro ⟨x, hx, y, hy, r, hr, rfl⟩
    exact ⟨hx, hy, hr⟩
  · rintro ⟨hx, hy, hr⟩
    exact ⟨_, hx, _, hy, _, hr, rfl⟩

theorem loadPair_ok (nd : XmlNode) (a : String) (p : ℚ × ℚ) :
    loadPair nd a = .ok p ↔ ∃ t, nd.attr a = some t ∧ lenientReading.numbers t.toList [p.1, p.2] := by
  simp only [loadPair, Outcome.bind_eq_ok, require_ok]
  constructor
  · rintro ⟨t, ht, h⟩
    refine ⟨t, ht, (components_iff _ _).mp ?_⟩
    split at h
    · rename_i x y hxy
      cases h
      exact hxy
    · cases h
  · rintro ⟨t, ht, h⟩
    refine ⟨t, ht, ?_⟩
    rw [(components_iff _ _).mpr h]

theorem loadPlane_ok (nd : XmlNode) (p : PlaneElement) : loadPlane nd = .ok p ↔ IsPlane lenientReading nd p := by
  simp only [loadPlane, Outcome.bind_eq_ok, loadPair_ok, Outcome.ok.injEq]
  constructor
  · rintro ⟨x, hx, n, hn, rfl⟩
    exact ⟨hx, hn⟩
  · rintro ⟨hx, hn⟩
    exact ⟨_, hx, _, hn, rfl⟩

theorem loadBall_ok (nd : XmlNode) (c : BallElement) : loadBall nd = .ok c ↔ IsBall lenientReading nd c := by
  simp only [loadBall, Outcome.bind_eq_ok, scalarUnchecked_ok, flagUnchecked_ok, Outcome.ok.injEq]
  constructor
  · rintro ⟨x, hx, y, hy, vx, hvx, vy, hvy, m, hm, r, hr, f, hf, rfl⟩
    exact ⟨hx, hy, hvx, hvy, hm, hr, hf⟩
  · rintro ⟨hx, hy, hvx, hvy, hm, hr, hf⟩
    exact ⟨_, hx, _, hy, _, hvx, _, hvy, _, hm, _, hr, _, hf, rfl⟩

theorem unsignedAttr_value (nd : XmlNode) (a : String) (n : ℕ) : nd.unsignedAttr a = .value n ↔ nd.Unsigned lenientReading a n := by
  unfold XmlNode.unsignedAttr XmlNode.Unsigned
  cases h : nd.attr a with
  | none => simp
  | some t =>
    simp only [Option.some.injEq, exists_eq_left']
    have := extractUnsigned_value t.toList n
    cases he : extractUnsigned t.toList with
    | value x rest =>
      simp only [XmlAttr.value.injEq]
      constructor
      · rintro rfl
        exact this.mp ⟨rest, he⟩
      · intro hn
        obtain ⟨rest', h'⟩ := this.mpr hn
        rw [he] at h'
        injection h'
    | nothing =>
      simp only [reduceCtorEq, false_iff]
      intro hn
      obtain ⟨rest', h'⟩ := this.mpr hn
      rw [he] at h'
      cases h'
    | failed x =>
      simp only [reduceCtorEq, false_iff]
      intro hn
      obtain ⟨rest', h'⟩ := this.mpr hn
      rw [he] at h'
      cases h'

theorem scalarAttr_value (nd : XmlNode) (a : String) (q : ℚ) : nd.scalarAttr a = .value q ↔ nd.Number lenientReading a q := by
  unfold XmlNode.scalarAttr XmlNode.Number
  cases h : nd.attr a with
  | none => simp
  | some t =>
    simp only [Option.some.injEq, exists_eq_left']
    have : lenientReading.number t.toList q ↔ ∃ rest, extractScalar t.toList = .value q rest := by
      simp only [extractScalar_value]
      rfl
    rw [this]
    cases he : extractScalar t.toList with
    | value x rest => simp
    | nothing => simp
    | failed x => simp

theorem loadPlanarPortals_ok {P : Type} (bad : ℚ → Bool) (admitted : ℚ → Prop) (hb : ∀ x, bad x = false ↔ admitted x) (root : XmlNode) (planes : List P)
    (r : List P × List (LoadedPortal P (ℚ × ℚ))) :
    loadPlanarPortals bad planes ((root.all "planar_portal").map (·.portalNode)) ((root.all "lees_edwards_portal").map (·.leesEdwardsNode)) = .ok r ↔
      DescribesPortals lenientReading admitted root planes r.1 r.2 := by
  obtain ⟨left, portals⟩ := r
  rw [C48_portals]
  simp only [List.forall₂_map_left_iff]
  have h1 : ∀ (nd : XmlNode) (p : ℕ × ℕ), nd.portalNode.Names p ↔ NamesPlanes lenientReading nd p := by
    intro nd p
    simp only [PortalNode.Names, XmlNode.portalNode, unsignedAttr_value, NamesPlanes]
  have h2 : ∀ (nd : XmlNode) (d : ℚ × ℚ), (nd.leesEdwardsNode.v = .value d.1 ∧ nd.leesEdwardsNode.bounds = .value d.2 ∧ bad d.2 = false) ↔
      (nd.Number lenientReading "v" d.1 ∧ nd.Number lenientReading "bounds" d.2 ∧ admitted d.2) := by
    intro nd d
    simp only [XmlNode.leesEdwardsNode, scalarAttr_value, hb]
  have h3 : ∀ (nd : XmlNode) (p : ℕ × ℕ), nd.leesEdwardsNode.planes.Names p ↔ NamesPlanes lenientReading nd p := h1
  simp only [forall₂_iff h1, forall₂_iff h2, forall₂_iff h3]
  rfl

theorem ballBadBounds_false (x : ℚ) : ballBadBounds x = false ↔ 0 < x := by simp [ballBadBounds]

theorem DescribesPortals.mono {P : Type} {R R' : SceneReading} (h : R.Le R') {admitted : ℚ → Prop} {root : XmlNode} {planes left : List P}
    {portals : List (LoadedPortal P (ℚ × ℚ))} (hd : DescribesPortals R admitted root planes left portals) : DescribesPortals R' admitted root planes left portals := by
  obtain ⟨pairs, lePairs, leData, planar, le, h1, h2, h3, hrest⟩ := hd
  exact ⟨pairs, lePairs, leData, planar, le, h1.imp fun nd p hp => ⟨Unsigned.mono h hp.1, Unsigned.mono h hp.2⟩,
    h2.imp fun nd p hp => ⟨Unsigned.mono h hp.1, Unsigned.mono h hp.2⟩, h3.imp fun nd d hd => ⟨Number.mono h hd.1, Number.mono h hd.2.1, hd.2.2⟩, hrest⟩

theorem DescribesEnd.mono {R R' : SceneReading} (h : R.Le R') {root : XmlNode} {t : Option ℚ} (he : DescribesEnd R root t) : DescribesEnd R' root t := by
  rcases he with he | ⟨nd, x, hnd, hx, hrest⟩
  · exact Or.inl he
  · exact Or.inr ⟨nd, x, hnd, Number.mono h hx, hrest⟩

theorem IsStep.mono {R R' : SceneReading} (h : R.Le R') {nd : XmlNode} {t : String} {dt : Rat64} (hs : IsStep R nd t dt) : IsStep R' nd t dt :=
  ⟨hs.1, h.timestep _ _ hs.2⟩

theorem DescribesBallScene.mono {R R' : SceneReading} (h : R.Le R') {b : Build} {doc : XmlNode} {s : BallScene} (hd : DescribesBallScene R b doc s) :
    DescribesBallScene R' b doc s := by
  obtain ⟨root, hroot, hs, he, ⟨g, p, hg, hp, hf⟩, ⟨nd, hnd, hst, hi⟩, ⟨c, hc, hcs⟩, hdr, ⟨planes, hpl, hpo⟩, balls, hb, hrest⟩ := hd
  refine ⟨root, hroot, hs, DescribesEnd.mono h he, ⟨g, p, hg.imp ?_, hp.imp ?_, hf⟩, ⟨nd, hnd, IsStep.mono h hst, hi⟩, ⟨c, DescribesContacts.mono h hc, hcs⟩, hdr.imp ?_,
    ⟨planes, hpl.imp ?_, DescribesPortals.mono h hpo⟩, balls, hb.imp ?_, hrest⟩
  · rintro nd f ⟨fx, fy, hx, hy, hf⟩
    exact ⟨fx, fy, BareNumber.mono h hx, BareNumber.mono h hy, hf⟩
  · rintro nd f ⟨fx, fy, hx, h0, hy, hf⟩
    exact ⟨fx, fy, Number.mono h hx, h0, Number.mono h hy, hf⟩
  · rintro nd d ⟨hx, hy, hr⟩
    exact ⟨BareNumber.mono h hx, BareNumber.mono h hy, BareNumber.mono h hr⟩
  · rintro nd p ⟨⟨t, ht, hx⟩, u, hu, hn⟩
    exact ⟨⟨t, ht, h.numbers _ _ hx⟩, u, hu, h.numbers _ _ hn⟩
  · rintro nd c ⟨h1, h2, h3, h4, h5, h6, h7⟩
    exact ⟨BareNumber.mono h h1, BareNumber.mono h h2, BareNumber.mono h h3, BareNumber.mono h h4, BareNumber.mono h h5, BareNumber.mono h h6, BareFlag.mono h h7⟩

theorem mapNodes_iff {α β : Type} {f : α → Outcome β} {r : α → β → Prop} (h : ∀ a b, f a = .ok b ↔ r a b) (l : List α) (m : List β) :
    mapNodes f l = .ok m ↔ List.Forall₂ r l m := by
  rw [mapNodes_ok, forall₂_iff h]

theorem parseBallScene_ok (b : Build) (doc : XmlNode) (s : BallScene) : parseBallScene b doc = .ok s ↔ DescribesBallScene lenientReading b doc s := by
  simp only [parseBallScene, loadBallScene, Outcome.bind_eq_ok, requireChild_ok, loadScripting_ok, loadEndTime_ok, mapNodes_iff loadGravity_ok,
    mapNodes_iff loadPenalty_ok, loadBallIntegrator_ok, loadSolvers_ok, mapNodes_iff loadDrum_ok, mapNodes_iff loadPlane_ok,
    loadPlanarPortals_ok ballBadBounds _ ballBadBounds_false, mapNodes_iff loadBall_ok, Outcome.ok.injEq, DescribesBallScene]
  constructor
  · rintro ⟨root, hroot, script, hscript, t, ht, g, hg, p, hp, ⟨dtText, dt, i⟩, hi, sol, hsol, drums, hdr, planes, hpl, ⟨left, portals⟩, hpo, balls, hb, rfl⟩
    exact ⟨root, hroot, hscript, ht, ⟨g, p, hg, hp, rfl⟩, hi, hsol, hdr, ⟨planes, hpl, hpo⟩, balls, hb, rfl, rfl, rfl, rfl, rfl⟩
  · obtain ⟨script, endTime, forces, dtText, dt, integrator, solvers, drums, left, portals, q, v, m, r, fixed⟩ := s
    rintro ⟨root, hroot, hscript, ht, ⟨g, p, hg, hp, hf⟩, hi, hsol, hdr, ⟨planes, hpl, hpo⟩, balls, hb, hq, hv, hm, hr, hfix⟩
    simp only at hf hq hv hm hr hfix
    subst hf hq hv hm hr hfix
    exact ⟨root, hroot, script, hscript, endTime, ht, g, hg, p, hp, (dtText, dt, integrator), hi, solvers, hsol, drums, hdr, planes, hpl, (left, portals), hpo, balls, hb, rfl⟩

end Scisim
