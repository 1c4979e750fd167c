import Verif.Spec.SceneRigid3D
import Verif.Lemmas.SceneRigid2D
/-!
# Scene files of the simulation of three dimensional rigid bodies: helper lemmas
-/

namespace Scisim

theorem loadTriple_ok (nd : XmlNode) (a : String) (p : ListTriple) : loadTriple nd a = .ok p ↔ nd.Triple lenientReading a p := by
  simp only [loadTriple, Outcome.bind_eq_ok, list_ok, XmlNode.Triple]
  constructor
  · rintro ⟨l, ⟨hl, t, ht, h⟩, hm⟩
    obtain ⟨x, y, z, rfl⟩ := List.length_eq_three.mp hl
    cases hm
    exact ⟨t, ht, h⟩
  · rintro ⟨t, ht, h⟩
    exact ⟨_, ⟨rfl, t, ht, h⟩, rfl⟩

theorem loadNearEarthGravity3D_ok (nd : XmlNode) (f : ListTriple) : loadNearEarthGravity3D nd = .ok f ↔ nd.Triple lenientReading "f" f :=
  loadTriple_ok nd "f" f

theorem loadVector_ok (nd : XmlNode) (a : String) (p : ℚ × ℚ × ℚ) : loadVector nd a = .ok p ↔ nd.Vector lenientReading a p := by
  simp only [loadVector, Outcome.bind_eq_ok, require_ok, XmlNode.Vector]
  constructor
  · rintro ⟨t, ht, h⟩
    refine ⟨t, ht, (components_iff _ _).mp ?_⟩
    split at h
    · rename_i x y z hxy
      cases h
      exact hxy
    · cases h
  · rintro ⟨t, ht, h⟩
    refine ⟨t, ht, ?_⟩
    rw [(components_iff _ _).mpr h]

theorem loadPerspective_ok (nd : XmlNode) (v : View3D) : loadPerspective nd = .ok v ↔ IsPerspective lenientReading nd v := by
  simp only [loadPerspective, Outcome.bind_eq_ok, ↓bind_failIf, scalar_ok, unsigned_ok, flag_ok, loadTriple_ok, decide_eq_false_iff_not, not_le, Outcome.ok.injEq]
  constructor
  · rintro ⟨th, hth, ph, hph, rho, hrho, h0, la, hla, up, hup, fps, hfps, r, hr, l, hl, rfl⟩
    exact ⟨_, _, _, _, _, rfl, hth, hph, hrho, h0, hla, hup, hfps, hr, hl⟩
  · obtain ⟨cam, fps, r, l⟩ := v
    rintro ⟨th, ph, rho, la, up, rfl, hth, hph, hrho, h0, hla, hup, hfps, hr, hl⟩
    exact ⟨_, hth, _, hph, _, hrho, h0, _, hla, _, hup, _, hfps, _, hr, _, hl, rfl⟩

theorem loadProjectionPlane_ok (nd : XmlNode) (p : ProjectionPlane) : loadProjectionPlane nd = .ok p ↔ nd.attr "projection_plane" = some p.name := by
  simp only [loadProjectionPlane, Outcome.bind_eq_ok, require_ok]
  constructor
  · rintro ⟨t, ht, h⟩
    split_ifs at h with h1 h2 h3
    all_goals
      subst_vars
      cases h
      exact ht
  · intro h
    refine ⟨_, h, ?_⟩
    cases p <;> rfl

theorem loadOrthographic_ok (nd : XmlNode) (v : View3D) : loadOrthographic nd = .ok v ↔ IsOrthographic lenientReading nd v := by
  simp only [loadOrthographic, Outcome.bind_eq_ok, ↓bind_failIf, scalar_ok, unsigned_ok, flag_ok, loadTriple_ok, loadProjectionPlane_ok, decide_eq_false_iff_not, not_le, Outcome.ok.injEq]
  constructor
  · rintro ⟨p, hp, c, hc, s, hs, h0, fps, hfps, r, hr, l, hl, rfl⟩
    exact ⟨_, _, _, rfl, hp, hc, hs, h0, hfps, hr, hl⟩
  · obtain ⟨cam, fps, r, l⟩ := v
    rintro ⟨p, c, s, rfl, hp, hc, hs, h0, hfps, hr, hl⟩
    exact ⟨_, hp, _, hc, _, hs, h0, _, hfps, _, hr, _, hl, rfl⟩

theorem loadOptional_ok {α : Type} {load : XmlNode → Outcome α} {is : XmlNode → α → Prop} (h : ∀ nd a, load nd = .ok a ↔ is nd a) (root : XmlNode) (name : String) (x : Option α) :
    loadOptional load root name = .ok x ↔ DescribesOptional is root name x := by
  unfold loadOptional DescribesOptional
  cases hn : root.first name with
  | none => simp [eq_comm]
  | some nd =>
    simp only [Outcome.bind_eq_ok, h, Outcome.ok.injEq, reduceCtorEq, false_and, false_or]
    constructor
    · rintro ⟨a, ha, rfl⟩
      exact ⟨nd, a, rfl, ha, rfl⟩
    · rintro ⟨nd', a, hnd, ha, rfl⟩
      cases hnd
      exact ⟨a, ha, rfl⟩

theorem loadView_ok (root : XmlNode) (v : Option View3D) : loadView root = .ok v ↔ DescribesView lenientReading root v := by
  simp only [loadView, Outcome.bind_eq_ok, loadOptional_ok loadPerspective_ok, loadOptional_ok loadOrthographic_ok, DescribesView, Outcome.ok.injEq]
  constructor
  · rintro ⟨p, hp, o, ho, rfl⟩
    exact ⟨p, o, hp, ho, by cases o <;> rfl⟩
  · rintro ⟨p, o, hp, ho, rfl⟩
    exact ⟨p, hp, o, ho, by cases o <;> rfl⟩

theorem loadRigid3DIntegrator_ok (root : XmlNode) (x : String × Rat64 × Rigid3DIntegrator) : loadRigid3DIntegrator root = .ok x ↔
    ∃ nd, root.first "integrator" = some nd ∧ IsStep lenientReading nd x.1 x.2.1 ∧ nd.attr "type" = some x.2.2.name := by
  obtain ⟨text, dt, i⟩ := x
  simp only [loadRigid3DIntegrator, Outcome.bind_eq_ok, requireChild_ok, loadDt_ok, require_ok]
  constructor
  · rintro ⟨nd, hnd, ⟨t, d⟩, hd, type, htype, h⟩
    simp only at h
    refine ⟨nd, hnd, ?_⟩
    split_ifs at h with h1 h2 h3
    all_goals
      subst_vars
      cases h
      exact ⟨hd, htype⟩
  · rintro ⟨nd, hnd, hd, ht⟩
    refine ⟨nd, hnd, (text, dt), hd, _, ht, ?_⟩
    cases i <;> rfl

theorem ge_false (x y : ListScalar) : x.ge y = false ↔ x.Less y := by
  rcases x with x | (_ | _) <;> rcases y with y | (_ | _) <;> simp [ListScalar.ge, ListScalar.Less]

theorem loadBoundary_ok (nd : XmlNode) (c : Boundary3D) : loadBoundary nd = .ok c ↔ IsBoundary lenientReading nd c := by
  simp only [loadBoundary, Outcome.bind_eq_ok, ↓bind_failIf, require_ok, loadTriple_ok, Bool.or_eq_false_iff, ge_false, Outcome.ok.injEq]
  constructor
  · rintro ⟨t, ht, e, he, mn, hmn, mx, hmx, ⟨⟨h1, h2⟩, h3⟩, rfl⟩
    refine ⟨?_, hmn, hmx, h1, h2, h3⟩
    split_ifs at he
    all_goals
      subst_vars
      cases he
      exact ht
  · obtain ⟨e, mn, mx⟩ := c
    rintro ⟨ht, hmn, hmx, h1, h2, h3⟩
    refine ⟨_, ht, e, ?_, _, hmn, _, hmx, ⟨⟨h1, h2⟩, h3⟩, rfl⟩
    cases e <;> rfl

theorem loadPlane3D_ok (nd : XmlNode) (p : Plane3DElement) : loadPlane3D nd = .ok p ↔ IsPlane3D lenientReading false nd p := by
  simp only [loadPlane3D, Outcome.bind_eq_ok, loadTriple_ok, Outcome.ok.injEq, IsPlane3D, Bool.false_eq_true, false_implies, and_true]
  constructor
  · rintro ⟨x, hx, n, hn, rfl⟩
    exact ⟨hx, hn⟩
  · rintro ⟨hx, hn⟩
    exact ⟨_, hx, _, hn, rfl⟩

theorem loadCylinder_ok (nd : XmlNode) (p : CylinderElement) : loadCylinder nd = .ok p ↔ IsCylinder lenientReading false nd p := by
  simp only [loadCylinder, Outcome.bind_eq_ok, ↓bind_failIf, loadTriple_ok, scalar_ok, decide_eq_false_iff_not, not_le, Outcome.ok.injEq, IsCylinder, Bool.false_eq_true, false_implies, and_true]
  constructor
  · rintro ⟨x, hx, n, hn, r, hr, h0, rfl⟩
    exact ⟨hx, hn, hr, h0⟩
  · rintro ⟨hx, hn, hr, h0⟩
    exact ⟨_, hx, _, hn, _, hr, h0, rfl⟩

theorem nonnegative_iff (x : ListScalar) : x.nonnegative = true ↔ x.NotNegative := by
  rcases x with x | (_ | _) <;> simp [ListScalar.nonnegative, ListScalar.NotNegative]

theorem loadPlaneRenderer_ok (n : ℕ) (nd : XmlNode) (r : PlaneRenderer HalfWidths) : loadPlaneRenderer n nd = .ok r ↔ IsPlaneRenderer lenientReading false n nd r := by
  simp only [loadPlaneRenderer, Outcome.bind_eq_ok, ↓bind_failIf, size_ok, loadPoint2_ok, decide_eq_false_iff_not, not_lt, gt_iff_lt, Bool.not_eq_false', Bool.and_eq_true, nonnegative_iff,
    Outcome.ok.injEq, IsPlaneRenderer, Bool.false_eq_true, false_implies, true_and]
  constructor
  · rintro ⟨i, hi, hn, w, hw, ⟨h1, h2⟩, rfl⟩
    exact ⟨hi, hn, hw, h1, h2⟩
  · rintro ⟨hi, hn, hw, h1, h2⟩
    exact ⟨_, hi, hn, _, hw, ⟨h1, h2⟩, rfl⟩

theorem loadCylinderRenderer_ok (n : ℕ) (nd : XmlNode) (r : ℕ × ℚ) : loadCylinderRenderer n nd = .ok r ↔ IsCylinderRenderer lenientReading false n nd r := by
  simp only [loadCylinderRenderer, Outcome.bind_eq_ok, ↓bind_failIf, size_ok, scalar_ok, decide_eq_false_iff_not, not_lt, gt_iff_lt,
    Outcome.ok.injEq, IsCylinderRenderer, Bool.false_eq_true, false_implies, true_and]
  constructor
  · rintro ⟨i, hi, hn, w, hw, h1, rfl⟩
    exact ⟨hi, hn, hw, h1⟩
  · rintro ⟨hi, hn, hw, h1⟩
    exact ⟨_, hi, hn, _, hw, h1, rfl⟩

theorem badFactor_false (z : ℤ) : badFactor z = false ↔ z = 1 ∨ z = -1 := by
  unfold badFactor
  simp only [Bool.or_eq_false_iff, decide_eq_false_iff_not]
  omega

theorem extractListInt_ok (s : List Char) (z : ℤ) (h : z ≠ 0) : extractListInt s = .ok z ↔ lenientReading.int s z := by
  have hv := extractInt32_value s z
  unfold extractListInt
  show _ ↔ BeginsWithInt s z
  rw [← hv]
  cases he : extractInt32 s with
  | value x rest => simp
  | nothing =>
    simp only [reduceCtorEq, exists_false, iff_false]
    split_ifs <;> simp [h.symm]
  | failed x =>
    simp only [reduceCtorEq, exists_false, iff_false]
    split_ifs <;> simp [h.symm]

theorem loadMultiplier_ok (nd : XmlNode) (m : Multiplier) : loadMultiplier nd = .ok m ↔ IsMultiplier lenientReading nd m := by
  obtain ⟨m1, m2, m3⟩ := m
  have hnz : ∀ {z : ℤ}, (z = 1 ∨ z = -1) → z ≠ 0 := by omega
  simp only [loadMultiplier, Outcome.bind_eq_ok, require_ok, IsMultiplier, readIntList]
  constructor
  · rintro ⟨t, ht, l, ⟨tokens, htk, hl⟩, h⟩
    split_ifs at hl with hlen
    split at h
    · rename_i x y z
      split_ifs at h with hbad
      cases h
      simp only [Bool.or_eq_true, not_or, Bool.not_eq_true, badFactor_false] at hbad
      obtain ⟨⟨h1, h2⟩, h3⟩ := hbad
      have hs : t.toList ≠ [] := by
        intro he
        rw [he, C04_tokenize_empty] at htk
        cases htk
      obtain ⟨tokens', ht', hj, hn, -⟩ := C04_tokenize t.toList ' ' hs
      rw [htk] at ht'
      cases ht'
      refine ⟨⟨t, tokens, ht, hj.symm, hn, ?_⟩, h1, h2, h3⟩
      rw [mapNodes_ok] at hl
      cases hl with
      | cons hx hl => cases hl with
        | cons hy hl => cases hl with
          | cons hz hl =>
            cases hl
            exact .cons ((extractListInt_ok _ _ (hnz h1)).mp hx) (.cons ((extractListInt_ok _ _ (hnz h2)).mp hy) (.cons ((extractListInt_ok _ _ (hnz h3)).mp hz) .nil))
    · cases h
  · rintro ⟨⟨t, texts, ht, hj, hn, hf⟩, h1, h2, h3⟩
    have hne : texts ≠ [] := by
      rintro rfl
      cases hf
    have hs : t.toList ≠ [] := by
      intro he
      have h0 := List.splitOn_intercalate ' ' hn hne
      rw [← hj, he] at h0
      have : texts.length = 3 := hf.length_eq
      rw [← h0] at this
      simp at this
    obtain ⟨tokens, htk, hj', hn', -⟩ := C04_tokenize t.toList ' ' hs
    have htne : tokens ≠ [] := by
      rintro rfl
      exact hs hj'.symm
    have : tokens = texts := by
      rw [← List.splitOn_intercalate ' ' hn' htne, ← List.splitOn_intercalate ' ' hn hne, hj', hj]
    subst this
    refine ⟨t, ht, [m1, m2, m3], ⟨tokens, htk, ?_⟩, ?_⟩
    · rw [if_neg (by rw [not_not]; exact hf.length_eq), mapNodes_ok]
      cases hf with
      | cons hx hl => cases hl with
        | cons hy hl => cases hl with
          | cons hz hl =>
            cases hl
            exact .cons ((extractListInt_ok _ _ (hnz h1)).mpr hx) (.cons ((extractListInt_ok _ _ (hnz h2)).mpr hy) (.cons ((extractListInt_ok _ _ (hnz h3)).mpr hz) .nil))
    · have := (badFactor_false _).mpr h1
      have := (badFactor_false _).mpr h2
      have := (badFactor_false _).mpr h3
      simp [*]

theorem loadPortalElements_eq (n : ℕ) : ∀ (nodes : List XmlNode) (acc : List ((ℕ × ℕ) × Multiplier)),
    loadPortalElements n nodes acc = loadNodes n (·.portalNode) loadMultiplier nodes acc
  | [], _ => rfl
  | nd :: rest, acc => by
    rw [loadPortalElements, loadNodes]
    congr 1
    funext p
    congr 1
    funext m
    exact loadPortalElements_eq n rest _

theorem renumberOne_eq (o : ℕ) : ∀ (ds : List ℕ) (x : ℕ), renumberOne ds o x = x - ds.countP (· < o)
  | [], x => rfl
  | d :: ds, x => by
    show renumberOne ds o (if o > d then x - 1 else x) = _
    rw [renumberOne_eq o ds, List.countP_cons]
    by_cases h : o > d
    · rw [if_pos h, if_pos (by simpa using h)]
      omega
    · rw [if_neg h, if_neg (by simpa using h)]
      omega

theorem forall₂_and {α β γ : Type} {r : α → β → Prop} {s : α → γ → Prop} : ∀ {l : List α} {m : List (β × γ)},
    List.Forall₂ (fun a x => r a x.1 ∧ s a x.2) l m ↔ List.Forall₂ r l (m.map (·.1)) ∧ List.Forall₂ s l (m.map (·.2))
  | [], m => by
    cases m <;> simp
  | a :: l, m => by
    cases m with
    | nil => simp
    | cons x m =>
      simp only [List.map_cons, List.forall₂_cons, forall₂_and (l := l)]
      tauto

theorem byPlane_sorted {W : Type} (rs : List (PlaneRenderer W)) : ((byPlane rs).map (·.index)).Pairwise (· ≤ ·) := by
  have : Std.Total fun a b : PlaneRenderer W => a.index ≤ b.index := ⟨fun a b => Nat.le_total _ _⟩
  have : IsTrans (PlaneRenderer W) fun a b => a.index ≤ b.index := ⟨fun a b c h1 h2 => Nat.le_trans h1 h2⟩
  rw [List.pairwise_map]
  exact List.pairwise_insertionSort _ _

theorem loadPortals3D_ok (root : XmlNode) (planes : List Plane3DElement) (rs : List (PlaneRenderer HalfWidths)) (hrs : (rs.map (·.index)).Pairwise (· ≤ ·))
    (l : Loaded3 Plane3DElement Multiplier HalfWidths) :
    loadPortals3D planes rs (root.all "planar_portal") = .ok l ↔ DescribesPortals3 lenientReading root planes rs l := by
  have hname : ∀ (nd : XmlNode) (p : ℕ × ℕ), nd.portalNode.Names p ↔ NamesPlanes lenientReading nd p := by
    intro nd p
    simp only [PortalNode.Names, XmlNode.portalNode, unsignedAttr_value, NamesPlanes]
  unfold loadPortals3D DescribesPortals3
  generalize root.all "planar_portal" = nodes
  by_cases hemp : nodes.isEmpty
  · rw [if_pos hemp]
    rw [List.isEmpty_iff] at hemp
    subst hemp
    have hf : (rs.filter fun x => x.index ∉ positions []) = rs := by simp [positions]
    have hm : (rs.map fun r => (⟨r.index - (positions []).countP (· < r.index), r.r⟩ : PlaneRenderer HalfWidths)) = rs := by
      simp [positions]
    constructor
    · intro h
      cases h
      refine ⟨[], [], .nil, .nil, by simp [positions], by simp [positions], .nil, (untouched_nil planes).symm, ?_, rfl⟩
      rw [hf, hm]
    · obtain ⟨l1, l2, l3, l4⟩ := l
      rintro ⟨pairs, mults, hp, hm', -, -, hj, hpl, hr, hpr⟩
      cases hp
      cases hm'
      rw [hf, hm] at hr
      simp only [List.zip_nil_left, List.forall₂_nil_left_iff] at hj
      simp only at hpl hr hpr
      rw [hpl, hr, hj, hpr, show positions [] = [] from rfl, untouched_nil]
      rfl
  · rw [if_neg hemp]
    have hne : nodes ≠ [] := fun h => hemp (by rw [h]; rfl)
    rw [loadPortalElements_eq]
    -- what the rest of the function does with a list of pairs
    have hfin : ∀ all : List ((ℕ × ℕ) × Multiplier), (positions (all.map (·.1))).Nodup → (∀ i ∈ positions (all.map (·.1)), i < planes.length) → ∃ ps,
        (∀ qs, List.Forall₂ (fun (x : (ℕ × ℕ) × Multiplier) q => LoadedPortal.Joins q planes x.1 x.2) all qs ↔ qs = ps) ∧
        ((buildPortals planes all).bind fun portals =>
          let indices := ((usedIndices all).insertionSort (· ≤ ·)).reverse
          (eraseEach3 indices planes rs).bind fun (planes', rs') =>
            (.ok ⟨planes', portals, renumberRenderers indices rs', portalRenderers rs 0 all⟩ : Outcome (Loaded3 Plane3DElement Multiplier HalfWidths))) =
        .ok ⟨untouched planes (positions (all.map (·.1))), ps,
          ((rs.filter fun r => r.index ∉ positions (all.map (·.1))).map fun r => ⟨r.index - (positions (all.map (·.1))).countP (· < r.index), r.r⟩),
          (all.map (·.1)).zipIdx.filterMap fun p =>
            if lastWidth rs p.1.1 ≠ 0 ∨ lastWidth rs p.1.2 ≠ 0 then some ⟨p.2, lastWidth rs p.1.1, lastWidth rs p.1.2⟩ else none⟩ := by
      intro all hn hl
      obtain ⟨ps, hp1, hp2⟩ := buildPortals_ok planes all hl
      refine ⟨ps, hp2, ?_⟩
      rw [hp1]
      simp only [Outcome.bind]
      obtain ⟨hd, hm⟩ := descending_spec _ hn
      have hperm : (((positions (all.map (·.1))).insertionSort (· ≤ ·)).reverse).Perm (positions (all.map (·.1))) :=
        (List.reverse_perm _).trans (List.perm_insertionSort _ _)
      rw [usedIndices_eq, eraseEach3_eq _ planes rs hd (fun i hi => hl i ((hm i).mp hi))]
      simp only
      generalize hds : ((positions (all.map (·.1))).insertionSort (· ≤ ·)).reverse = ds at hd hm hperm
      have hsub : (rs.filter fun x => x.index ∉ ds) = rs.filter fun x => x.index ∉ positions (all.map (·.1)) := by
        apply List.filter_congr
        intro x _
        simp [hm]
      have hsorted : ((rs.filter fun x => x.index ∉ ds).map (·.index)).Pairwise (· ≤ ·) := hrs.sublist (List.filter_sublist.map _)
      rw [renumberRenderers_eq ds _ hsorted, hsub, untouched_congr planes hm, portalRenderers_eq rs all 0 (positions_ne hn)]
      simp only [renumberOne_eq, hperm.countP_eq]
    constructor
    · intro h
      by_cases h2 : planes.length < 2
      · rw [if_pos h2] at h; cases h
      · rw [if_neg h2] at h
        obtain ⟨all, ha, h⟩ := Outcome.bind_ok_iff.mp h
        obtain ⟨new, hnew, hf, hn, hl⟩ := (loadNodes_ok _ _ _ nodes [] all (by simp [positions]) (by simp [positions])).mp ha
        rw [List.nil_append] at hnew
        rw [← hnew] at hf
        clear hnew new ha
        obtain ⟨ps, hps, hres⟩ := hfin all hn hl
        rw [hres] at h
        cases h
        obtain ⟨hf1, hf2⟩ := (forall₂_and (r := fun (nd : XmlNode) p => nd.portalNode.Names p) (s := fun nd m => loadMultiplier nd = .ok m)).mp hf
        refine ⟨all.map (·.1), all.map (·.2), hf1.imp fun nd p => (hname nd p).mp, hf2.imp fun nd m => (loadMultiplier_ok nd m).mp, hn, hl, ?_, rfl, rfl, rfl⟩
        rw [zip_map_fst_snd]
        exact (hps ps).mpr rfl
    · obtain ⟨l1, l2, l3, l4⟩ := l
      rintro ⟨pairs, mults, hp, hm, hn, hl, hj, hpl, hr, hpr⟩
      simp only at hj hpl hr hpr
      have hlen : pairs.length = mults.length := hp.length_eq.symm.trans hm.length_eq
      have hz1 : (pairs.zip mults).map (·.1) = pairs := List.map_fst_zip hlen.le
      have hz2 : (pairs.zip mults).map (·.2) = mults := List.map_snd_zip hlen.ge
      have h2 : ¬ planes.length < 2 := by
        apply positions_two ?_ hn hl
        rintro rfl
        cases hp
        exact hne rfl
      rw [if_neg h2]
      have hload : loadNodes planes.length (·.portalNode) loadMultiplier nodes [] = .ok (pairs.zip mults) := by
        rw [loadNodes_ok _ _ _ nodes [] _ (by simp [positions]) (by simp [positions])]
        refine ⟨pairs.zip mults, rfl, ?_, ?_, ?_⟩
        · apply (forall₂_and (r := fun (nd : XmlNode) p => nd.portalNode.Names p) (s := fun nd m => loadMultiplier nd = .ok m)).mpr
          rw [hz1, hz2]
          exact ⟨hp.imp fun nd p => (hname nd p).mpr, hm.imp fun nd m => (loadMultiplier_ok nd m).mpr⟩
        · rw [hz1]
          exact hn
        · rw [hz1]
          exact hl
      rw [hload]
      obtain ⟨ps, hps, hres⟩ := hfin (pairs.zip mults) (by rw [hz1]; exact hn) (by rw [hz1]; exact hl)
      rw [hz1] at hres
      have : l2 = ps := (hps l2).mp hj
      subst this
      rw [hpl, hr, hpr]
      exact hres

theorem loadGeometry3D_ok (files : MeshFiles) (nd : XmlNode) (g : Geometry3DElement) : loadGeometry3D files nd = .ok g ↔ IsGeometry3D lenientReading files nd g := by
  simp only [loadGeometry3D, Outcome.bind_eq_ok, require_ok]
  constructor
  · rintro ⟨type, ht, h⟩
    split_ifs at h with h1 h2 h3 h4
    · subst h1
      simp only [Outcome.bind_eq_ok, ↓bind_failIf, scalar_ok, decide_eq_false_iff_not, not_le, Outcome.ok.injEq] at h
      obtain ⟨r, hr, h0, rfl⟩ := h
      exact ⟨ht, hr, h0⟩
    · subst h2
      simp only [Outcome.bind_eq_ok, ↓bind_failIf, loadTriple_ok, Bool.or_eq_false_iff, nonpositive_false, Outcome.ok.injEq] at h
      obtain ⟨r, hr, ⟨⟨h0, h1⟩, h2⟩, rfl⟩ := h
      exact ⟨ht, hr, h0, h1, h2⟩
    · subst h3
      simp only [Outcome.bind_eq_ok, ↓bind_failIf, scalar_ok, decide_eq_false_iff_not, not_le, Bool.or_eq_false_iff, gt_iff_lt, not_lt, Outcome.ok.injEq] at h
      obtain ⟨w, hw, hw0, l, hl, hl0, D, hD, hD0, ⟨h1, h2⟩, rfl⟩ := h
      exact ⟨ht, hw, hw0, hl, hl0, hD, hD0, h1, h2⟩
    · subst h4
      simp only [Outcome.bind_eq_ok, require_ok, Outcome.ok.injEq] at h
      obtain ⟨f, hf, u, hu, rfl⟩ := h
      exact ⟨ht, hf, hu⟩
  · intro h
    cases g with
    | sphere r =>
      obtain ⟨ht, hr, h0⟩ := h
      refine ⟨_, ht, ?_⟩
      rw [if_pos rfl]
      simp only [Outcome.bind_eq_ok, ↓bind_failIf, scalar_ok, decide_eq_false_iff_not, not_le, Outcome.ok.injEq]
      exact ⟨r, hr, h0, rfl⟩
    | box r =>
      obtain ⟨ht, hr, h0, h1, h2⟩ := h
      refine ⟨_, ht, ?_⟩
      rw [if_neg (by decide), if_pos rfl]
      simp only [Outcome.bind_eq_ok, ↓bind_failIf, loadTriple_ok, Bool.or_eq_false_iff, nonpositive_false, Outcome.ok.injEq]
      exact ⟨r, hr, ⟨⟨h0, h1⟩, h2⟩, rfl⟩
    | staple w l D =>
      obtain ⟨ht, hw, hw0, hl, hl0, hD, hD0, h1, h2⟩ := h
      refine ⟨_, ht, ?_⟩
      rw [if_neg (by decide), if_neg (by decide), if_pos rfl]
      simp only [Outcome.bind_eq_ok, ↓bind_failIf, scalar_ok, decide_eq_false_iff_not, not_le, Bool.or_eq_false_iff, gt_iff_lt, not_lt, Outcome.ok.injEq]
      exact ⟨w, hw, hw0, l, hl, hl0, D, hD, hD0, ⟨h1, h2⟩, rfl⟩
    | mesh f =>
      obtain ⟨ht, hf, hu⟩ := h
      refine ⟨_, ht, ?_⟩
      rw [if_neg (by decide), if_neg (by decide), if_neg (by decide), if_pos rfl]
      simp only [Outcome.bind_eq_ok, require_ok, Outcome.ok.injEq]
      exact ⟨f, hf, (), hu, rfl⟩

theorem lenient_int_range {s : List Char} {z : ℤ} (h : lenientReading.int s z) : -2 ^ 31 ≤ z := by
  obtain ⟨_, _, _, _, _, h, _⟩ := h
  exact h

theorem loadGeoIdx_ok (n : ℕ) (nd : XmlNode) (i : ℕ) : loadGeoIdx n nd = .ok i ↔ ∃ z, nd.Int lenientReading "geo_idx" z ∧ IsShapeIndex n z i := by
  simp only [loadGeoIdx, Outcome.bind_eq_ok, int_ok, XmlNode.Int, IsShapeIndex]
  constructor
  · rintro ⟨z, hz, h⟩
    refine ⟨z, hz, ?_⟩
    obtain ⟨t, -, ht⟩ := hz
    have := lenient_int_range ht
    split_ifs at h <;> cases h <;> omega
  · rintro ⟨z, hz, h⟩
    refine ⟨z, hz, ?_⟩
    split_ifs <;> first | (exfalso; omega) | (congr 1; omega)

theorem loadRotation_ok (nd : XmlNode) (r : Option ListTriple) :
    loadRotation nd = .ok r ↔ (nd.attr "R" = none ∧ r = none) ∨ ∃ p, nd.Triple lenientReading "R" p ∧ r = some p := by
  unfold loadRotation
  cases h : nd.attr "R" with
  | none => simp [XmlNode.Triple, h, eq_comm]
  | some t =>
    simp only [Outcome.bind_eq_ok, loadTriple_ok, Outcome.ok.injEq, reduceCtorEq, false_and, false_or]
    exact ⟨fun ⟨p, hp, he⟩ => ⟨p, hp, he.symm⟩, fun ⟨p, hp, he⟩ => ⟨p, hp, he.symm⟩⟩

theorem loadBody3D_ok (n : ℕ) (nd : XmlNode) (c : Body3DElement) : loadBody3D n nd = .ok c ↔ IsBody3D lenientReading false n nd c := by
  simp only [loadBody3D, Outcome.bind_eq_ok, scalar_ok, flag_ok, loadVector_ok, loadGeoIdx_ok, loadRotation_ok, Outcome.ok.injEq, IsBody3D, Bool.false_eq_true, false_implies, true_and]
  constructor
  · rintro ⟨x, hx, v, hv, om, hom, rho, hrho, f, hf, g, hg, r, hr, rfl⟩
    exact ⟨hx, hv, hom, hrho, hf, hg, hr⟩
  · rintro ⟨hx, hv, hom, hrho, hf, hg, hr⟩
    exact ⟨_, hx, _, hv, _, hom, _, hrho, _, hf, _, hg, _, hr, rfl⟩

theorem parseRigid3DScene_ok (b : Build) (files : MeshFiles) (doc : XmlNode) (s : Rigid3DScene) :
    parseRigid3DScene b files doc = .ok s ↔ DescribesRigid3DScene lenientReading false b files doc s := by
  simp only [parseRigid3DScene, loadRigid3DScene, Outcome.bind_eq_ok, requireChild_ok, loadScripting_ok, loadEndTime_ok, mapNodes_iff loadNearEarthGravity3D_ok, loadView_ok,
    loadRigid3DIntegrator_ok, loadSolvers_ok, loadOptional_ok loadBoundary_ok, mapNodes_iff loadPlane3D_ok, mapNodes_iff loadCylinder_ok, mapNodes_iff (loadPlaneRenderer_ok _),
    mapNodes_iff (loadCylinderRenderer_ok _), mapNodes_iff (loadGeometry3D_ok files), mapNodes_iff (loadBody3D_ok _), Outcome.ok.injEq, DescribesRigid3DScene]
  constructor
  · rintro ⟨root, hroot, script, hscript, t, ht, f, hf, view, hview, ⟨dtText, dt, i⟩, hi, sol, hsol, bd, hbd, planes, hpl, cyl, hcyl, rs, hrs, crs, hcrs, ⟨l1, l2, l3, l4⟩, hl, g, hg,
      bodies, hb, rfl⟩
    exact ⟨root, hroot, hscript, ht, hf, hview, hi, hsol, hbd, hcyl, hcrs, ⟨planes, rs, hpl, hrs, (loadPortals3D_ok root planes _ (byPlane_sorted rs) _).mp hl⟩, hg, hb⟩
  · obtain ⟨script, endTime, forces, view, dtText, dt, integrator, solvers, boundary, planes', cylinders, prs, crs, portals, pors, g, bodies⟩ := s
    rintro ⟨root, hroot, hscript, ht, hf, hview, hi, hsol, hbd, hcyl, hcrs, ⟨planes, rs, hpl, hrs, hl⟩, hg, hb⟩
    exact ⟨root, hroot, script, hscript, endTime, ht, forces, hf, view, hview, (dtText, dt, integrator), hi, solvers, hsol, boundary, hbd, planes, hpl, cylinders, hcyl, rs, hrs, crs, hcrs,
      _, (loadPortals3D_ok root planes _ (byPlane_sorted rs) _).mpr hl, g, hg, bodies, hb, rfl⟩

section mono
variable {R R' : SceneReading} (h : R.Le R')
include h

theorem Triple.mono {nd : XmlNode} {a : String} {p : ListTriple} (hp : nd.Triple R a p) : nd.Triple R' a p := by
  obtain ⟨t, ht, hl⟩ := hp
  exact ⟨t, ht, h.list _ _ hl⟩

theorem Vector.mono' {nd : XmlNode} {a : String} {p : ℚ × ℚ × ℚ} (hp : nd.Vector R a p) : nd.Vector R' a p := by
  obtain ⟨t, ht, hl⟩ := hp
  exact ⟨t, ht, h.numbers _ _ hl⟩

theorem Index.mono {nd : XmlNode} {a : String} {n : ℕ} (hp : nd.Index R a n) : nd.Index R' a n := by
  obtain ⟨t, ht, hl⟩ := hp
  exact ⟨t, ht, h.size _ _ hl⟩

theorem IsDisplay.mono {nd : XmlNode} {v : View3D} (hd : IsDisplay R nd v) : IsDisplay R' nd v :=
  ⟨Unsigned.mono h hd.1, Flag.mono h hd.2.1, Flag.mono h hd.2.2⟩

omit h in
theorem DescribesOptional.mono {α : Type} {is is' : XmlNode → α → Prop} (hi : ∀ nd a, is nd a → is' nd a) {root : XmlNode} {name : String} {x : Option α}
    (hd : DescribesOptional is root name x) : DescribesOptional is' root name x := by
  rcases hd with hd | ⟨nd, a, hn, ha, hx⟩
  · exact Or.inl hd
  · exact Or.inr ⟨nd, a, hn, hi _ _ ha, hx⟩

theorem DescribesPortals3.mono {root : XmlNode} {planes : List Plane3DElement} {rs : List (PlaneRenderer HalfWidths)} {l : Loaded3 Plane3DElement Multiplier HalfWidths}
    (hd : DescribesPortals3 R root planes rs l) : DescribesPortals3 R' root planes rs l := by
  obtain ⟨pairs, mults, hp, hm, hrest⟩ := hd
  refine ⟨pairs, mults, hp.imp fun nd p hp => ⟨Unsigned.mono h hp.1, Unsigned.mono h hp.2⟩, hm.imp ?_, hrest⟩
  rintro nd m ⟨⟨t, texts, ht, hj, hn, hf⟩, hu⟩
  exact ⟨⟨t, texts, ht, hj, hn, hf.imp fun s z => h.int s z⟩, hu⟩

theorem DescribesRigid3DScene.mono {strict : Bool} {b : Build} {files : MeshFiles} {doc : XmlNode} {s : Rigid3DScene} (hd : DescribesRigid3DScene R strict b files doc s) :
    DescribesRigid3DScene R' false b files doc s := by
  obtain ⟨root, hroot, hs, he, hf, ⟨p, o, hp, ho, hv⟩, ⟨nd, hnd, hst, hi⟩, ⟨c, hc, hcs⟩, hbd, hcyl, hcr, ⟨planes, rs, hpl, hrs, hpo⟩, hg, hb⟩ := hd
  have hno : ∀ {P : Prop}, (false = true → P) := fun h => by cases h
  refine ⟨root, hroot, hs, DescribesEnd.mono h he, hf.imp fun nd f hf => Triple.mono h hf, ⟨p, o, DescribesOptional.mono ?_ hp, DescribesOptional.mono ?_ ho, hv⟩,
    ⟨nd, hnd, IsStep.mono h hst, hi⟩, ⟨c, DescribesContacts.mono h hc, hcs⟩, DescribesOptional.mono ?_ hbd, hcyl.imp ?_, hcr.imp ?_,
    ⟨planes, rs, hpl.imp ?_, hrs.imp ?_, DescribesPortals3.mono h hpo⟩, hg.imp ?_, hb.imp ?_⟩
  · rintro nd v ⟨th, ph, rho, la, up, hv, h1, h2, h3, h4, h5, h6, h7⟩
    exact ⟨th, ph, rho, la, up, hv, Number.mono h h1, Number.mono h h2, Number.mono h h3, h4, Triple.mono h h5, Triple.mono h h6, IsDisplay.mono h h7⟩
  · rintro nd v ⟨p, c, s, hv, h1, h2, h3, h4, h5⟩
    exact ⟨p, c, s, hv, h1, Triple.mono h h2, Number.mono h h3, h4, IsDisplay.mono h h5⟩
  · rintro nd b ⟨h1, h2, h3, h4⟩
    exact ⟨h1, Triple.mono h h2, Triple.mono h h3, h4⟩
  · rintro nd c ⟨h1, h2, h3, h4, -⟩
    exact ⟨Triple.mono h h1, Triple.mono h h2, Number.mono h h3, h4, hno⟩
  · rintro nd c ⟨h1, h2, -, h3, h4⟩
    exact ⟨Index.mono h h1, h2, hno, Number.mono h h3, h4⟩
  · rintro nd p ⟨h1, h2, -⟩
    exact ⟨Triple.mono h h1, Triple.mono h h2, hno⟩
  · rintro nd p ⟨h1, h2, -, h3, h4⟩
    exact ⟨Index.mono h h1, h2, hno, Pair.mono h h3, h4⟩
  · rintro nd g hg
    cases g with
    | sphere r => exact ⟨hg.1, Number.mono h hg.2.1, hg.2.2⟩
    | box r => exact ⟨hg.1, Triple.mono h hg.2.1, hg.2.2⟩
    | staple w l D =>
      obtain ⟨h0, h1, h2, h3, h4, h5, h6⟩ := hg
      exact ⟨h0, Number.mono h h1, h2, Number.mono h h3, h4, Number.mono h h5, h6⟩
    | mesh f => exact hg
  · rintro nd c ⟨h1, h2, h3, h4, -, h6, ⟨z, hz, hzi⟩, h8⟩
    refine ⟨Vector.mono' h h1, Vector.mono' h h2, Vector.mono' h h3, Number.mono h h4, hno, Flag.mono h h6, ⟨z, Int.mono' h hz, hzi⟩, ?_⟩
    rcases h8 with h8 | ⟨r, hr, he⟩
    · exact Or.inl h8
    · exact Or.inr ⟨r, Triple.mono h hr, he⟩

end mono

theorem loadTriple_returns (nd : XmlNode) (a : String) (h : nd.attr a ≠ some "") : (loadTriple nd a).Returns := by
  refine (scalarList_returns nd a 3 h).bind fun l _ => ?_
  split
  · exact .ok _
  · exact .fail

theorem loadVector_returns (nd : XmlNode) (a : String) : (loadVector nd a).Returns := by
  refine (require_returns _ _).bind fun t _ => ?_
  split
  · exact .ok _
  · exact .fail

theorem loadMultiplier_returns (nd : XmlNode) (h : nd.attr "multiplier" ≠ some "") : (loadMultiplier nd).Returns := by
  refine (require_returns _ _).bind fun t ht => ?_
  have ht := (require_ok _ _ _).mp ht
  have hne : t.toList ≠ [] := by
    intro he
    apply h
    rw [ht, String.toList_eq_nil_iff.mp he]
  obtain ⟨tokens, htk, -⟩ := C04_tokenize t.toList ' ' hne
  refine Outcome.Returns.bind ?_ fun l _ => ?_
  · unfold readIntList
    rw [htk]
    show (if tokens.length ≠ 3 then Outcome.fail else mapNodes extractListInt tokens).Returns
    split_ifs
    · exact .fail
    · refine mapNodes_returns _ _ fun s _ => ?_
      unfold extractListInt
      split
      · exact .ok _
      · split_ifs
        · exact .ok _
        · exact .ok _
        · exact .fail
  · split
    · split_ifs
      · exact .fail
      · exact .ok _
    · exact .fail

end Scisim
